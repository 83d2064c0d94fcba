import Verif.Lemmas.CommonTangent
import Verif.Lemmas.PureVLE
import Verif.Lemmas.Cubic
import Verif.Spec.Saturation
import Mathlib.Analysis.SpecialFunctions.Log.NegMulLog

/-! # Saturation states of isotherms with one unstable interval -/

set_option autoImplicit false

namespace Teqp.Lemmas
open Teqp Teqp.Model Teqp.Spec Teqp.Calc Teqp.PureVLE Filter Topology Set

/-- The properties of an isotherm up to the density `B` that the saturation states follow from: smooth, finite at vanishing density, infinite at `B`, and with a negative slope of the
pressure between any two densities where the slope is not positive. -/
structure Loop (α : ℝ → ℝ → ℝ) (R T B : ℝ) : Prop where
  smooth : ∀ ρ ∈ Ioo 0 B, ContDiffAt ℝ 2 (α T) ρ
  zero : ContinuousAt (α T) 0
  top : Tendsto (α T) (𝓝[<] B) atTop
  single : ∀ x y z, 0 < x → x < y → y < z → z < B → deriv (totalPressure α R T) x ≤ 0 → deriv (totalPressure α R T) z ≤ 0 → deriv (totalPressure α R T) y < 0

/-- Reduced Helmholtz energy per volume without the linear term of the ideal gas, its slope and its curvature. -/
noncomputable def volA (α : ℝ → ℝ → ℝ) (T ρ : ℝ) : ℝ := ρ * Real.log ρ + ρ * α T ρ
noncomputable def volA1 (α : ℝ → ℝ → ℝ) (T ρ : ℝ) : ℝ := Real.log ρ + 1 + (α T ρ + ρ * drn α 1 T ρ)
noncomputable def volA2 (α : ℝ → ℝ → ℝ) (T ρ : ℝ) : ℝ := 1 / ρ + (2 * drn α 1 T ρ + ρ * drn α 2 T ρ)

theorem volA_hasDeriv {α : ℝ → ℝ → ℝ} {T ρ : ℝ} (hρ : ρ ≠ 0) (h : ContDiffAt ℝ 2 (α T) ρ) : HasDerivAt (volA α T) (volA1 α T ρ) ρ := by
  have h0 : HasDerivAt (α T) (drn α 1 T ρ) ρ := hasDerivAt_r (n := 2) (j := 0) h (by norm_num)
  have e1 : HasDerivAt (fun r : ℝ => r * Real.log r) (Real.log ρ + 1) ρ := Real.hasDerivAt_mul_log hρ
  have e2 : HasDerivAt (fun r : ℝ => r * α T r) (1 * α T ρ + ρ * drn α 1 T ρ) ρ := (hasDerivAt_id ρ).mul h0
  have e3 : HasDerivAt (fun r : ℝ => r * Real.log r + r * α T r) _ ρ := e1.add e2
  refine e3.congr_deriv ?_
  unfold volA1
  ring

theorem volA1_hasDeriv {α : ℝ → ℝ → ℝ} {T ρ : ℝ} (hρ : ρ ≠ 0) (h : ContDiffAt ℝ 2 (α T) ρ) : HasDerivAt (volA1 α T) (volA2 α T ρ) ρ := by
  have h0 : HasDerivAt (α T) (drn α 1 T ρ) ρ := hasDerivAt_r (n := 2) (j := 0) h (by norm_num)
  have h1 : HasDerivAt (drn α 1 T) (drn α 2 T ρ) ρ := hasDerivAt_r (n := 2) (j := 1) h (by norm_num)
  have e1 : HasDerivAt (fun r : ℝ => Real.log r + 1) ρ⁻¹ ρ := (Real.hasDerivAt_log hρ).add_const 1
  have e2 : HasDerivAt (fun r : ℝ => r * drn α 1 T r) (1 * drn α 1 T ρ + ρ * drn α 2 T ρ) ρ := (hasDerivAt_id ρ).mul h1
  have e3 : HasDerivAt (fun r : ℝ => Real.log r + 1 + (α T r + r * drn α 1 T r)) _ ρ := e1.add (h0.add e2)
  refine e3.congr_deriv ?_
  unfold volA2
  ring

theorem volA2_slope {α : ℝ → ℝ → ℝ} {R T ρ : ℝ} (hρ : ρ ≠ 0) (h : ContDiffAt ℝ 2 (α T) ρ) : deriv (totalPressure α R T) ρ = R * T * ρ * volA2 α T ρ := by
  rw [(Teqp.PureVLE.pressure_drho h).deriv]
  unfold volA2
  field_simp
  ring

theorem volA_pressure (α : ℝ → ℝ → ℝ) (R T ρ : ℝ) : totalPressure α R T ρ = -(R * T * (volA α T ρ - ρ * volA1 α T ρ)) := by
  rw [pressure_eq]
  unfold volA volA1
  ring

theorem volA_chemPot {α : ℝ → ℝ → ℝ} {c : ℝ → ℝ} {R T ρ : ℝ} (hρ : ρ ≠ 0) (h : ContDiffAt ℝ 2 (α T) ρ) : chemPot α c R T ρ = R * T * (volA1 α T ρ + c T) := by
  rw [chemPot_eq hρ (h.differentiableAt (by norm_num))]
  unfold volA1
  ring

theorem coexist_volA {α : ℝ → ℝ → ℝ} {c : ℝ → ℝ} {R T v l : ℝ} (hR : 0 < R) (hT : 0 < T) (hv : 0 < v) (hl : 0 < l) (sv : ContDiffAt ℝ 2 (α T) v) (sl : ContDiffAt ℝ 2 (α T) l) :
    Coexist α c R T l v ↔ volA1 α T v = volA1 α T l ∧ volA α T v - v * volA1 α T v = volA α T l - l * volA1 α T l := by
  have hRT : R * T ≠ 0 := (mul_pos hR hT).ne'
  unfold Coexist
  rw [volA_pressure, volA_pressure, volA_chemPot hv.ne' sv, volA_chemPot hl.ne' sl]
  constructor
  · rintro ⟨h1, h2⟩
    have h1 := mul_left_cancel₀ hRT (neg_injective h1)
    have h2 := mul_left_cancel₀ hRT h2
    exact ⟨by linarith, h1.symm⟩
  · rintro ⟨h1, h2⟩
    rw [h1, ← h2, h1]
    exact ⟨rfl, rfl⟩

namespace Loop
variable {α : ℝ → ℝ → ℝ} {R T B : ℝ} (L : Loop α R T B)
include L

theorem slope_sign (hR : 0 < R) (hT : 0 < T) {ρ : ℝ} (hρ : ρ ∈ Ioo 0 B) :
    (0 < deriv (totalPressure α R T) ρ ↔ 0 < volA2 α T ρ) ∧ (deriv (totalPressure α R T) ρ < 0 ↔ volA2 α T ρ < 0) ∧ (deriv (totalPressure α R T) ρ ≤ 0 ↔ volA2 α T ρ ≤ 0) := by
  rw [volA2_slope hρ.1.ne' (L.smooth ρ hρ)]
  have hk : 0 < R * T * ρ := mul_pos (mul_pos hR hT) hρ.1
  refine ⟨mul_pos_iff_of_pos_left hk, by rw [mul_neg_iff]; exact ⟨fun h => h.elim (·.2) (fun h => absurd h.1 hk.le.not_gt), fun h => Or.inl ⟨hk, h⟩⟩, ?_⟩
  rw [← not_lt, ← not_lt, mul_pos_iff_of_pos_left hk]

theorem single' (hR : 0 < R) (hT : 0 < T) (x y z : ℝ) (h0 : 0 < x) (hxy : x < y) (hyz : y < z) (hz : z < B) (h1 : volA2 α T x ≤ 0) (h2 : volA2 α T z ≤ 0) : volA2 α T y < 0 :=
  (L.slope_sign hR hT ⟨h0.trans hxy, hyz.trans hz⟩).2.1.1 (L.single x y z h0 hxy hyz hz
    ((L.slope_sign hR hT ⟨h0, (hxy.trans hyz).trans hz⟩).2.2.2 h1) ((L.slope_sign hR hT ⟨(h0.trans hxy).trans hyz, hz⟩).2.2.2 h2))

/-- An unstable density has a saturation state around it, with positive pressure, and both phases are globally stable. -/
theorem exists_sat (c : ℝ → ℝ) (hR : 0 < R) (hT : 0 < T) {s : ℝ} (h0 : 0 < s) (hB : s < B) (hs : deriv (totalPressure α R T) s < 0) :
    ∃ v l, 0 < v ∧ v < s ∧ s < l ∧ l < B ∧ Coexist α c R T l v ∧ 0 < totalPressure α R T v ∧
      ∀ ρ, 0 < ρ → ρ < B → chemPot α c R T v * ρ - totalPressure α R T v ≤ ρ * helmholtz (totalAlpha α c) R T ρ := by
  have hd (ρ : ℝ) (hρ : ρ ∈ Ioo 0 B) := volA_hasDeriv hρ.1.ne' (L.smooth ρ hρ)
  have hd2 (ρ : ℝ) (hρ : ρ ∈ Ioo 0 B) := volA1_hasDeriv hρ.1.ne' (L.smooth ρ hρ)
  have hz0 : volA α T 0 = 0 := by simp [volA]
  have hcont : ContinuousOn (volA α T) (Ico 0 B) := by
    intro ρ hρ
    rcases hρ.1.eq_or_lt with h | h
    · rw [← h]
      have h1 : ContinuousAt (fun r : ℝ => r * Real.log r) 0 := Real.continuous_mul_log.continuousAt
      have h2 : ContinuousAt (fun r : ℝ => r * α T r) 0 := continuousAt_id.mul L.zero
      exact (h1.add h2).continuousWithinAt
    · exact (hd ρ ⟨h, hρ.2⟩).continuousAt.continuousWithinAt
  have hz : ∀ M, ∃ ρ ∈ Ioo 0 s, volA α T ρ < volA α T 0 + M * ρ := by
    intro M
    have e1 : ∀ᶠ ρ in 𝓝[>] (0 : ℝ), ρ ∈ Ioo 0 s := Ioo_mem_nhdsGT h0
    have e2 : ∀ᶠ ρ in 𝓝[>] (0 : ℝ), α T ρ < α T 0 + 1 := (L.zero.eventually_lt continuousAt_const (by linarith)).filter_mono nhdsWithin_le_nhds
    have e3 : ∀ᶠ ρ in 𝓝[>] (0 : ℝ), Real.log ρ < M - α T 0 - 1 := Real.tendsto_log_nhdsGT_zero.eventually_lt_atBot _
    obtain ⟨ρ, h1, h2, h3⟩ := (e1.and (e2.and e3)).exists
    refine ⟨ρ, h1, ?_⟩
    rw [hz0]
    unfold volA
    have : ρ * (Real.log ρ + α T ρ) < ρ * M := mul_lt_mul_of_pos_left (by linarith) h1.1
    linarith
  have hBp := h0.trans hB
  have ht : Tendsto (volA α T) (𝓝[<] B) atTop := by
    have t1 : Tendsto (fun ρ : ℝ => ρ * Real.log ρ) (𝓝[<] B) (𝓝 (B * Real.log B)) := (Real.continuous_mul_log.tendsto B).mono_left nhdsWithin_le_nhds
    have t2 : Tendsto (fun ρ : ℝ => ρ) (𝓝[<] B) (𝓝 B) := tendsto_id.mono_left nhdsWithin_le_nhds
    exact t1.add_atTop (t2.pos_mul_atTop hBp L.top)
  have hdd : deriv (deriv (volA α T)) s < 0 := by
    have hev : deriv (volA α T) =ᶠ[𝓝 s] volA1 α T := by
      filter_upwards [Ioo_mem_nhds h0 hB] with r hr
      exact (hd r hr).deriv
    rw [hev.deriv_eq, (hd2 s ⟨h0, hB⟩).deriv]
    exact (L.slope_sign hR hT ⟨h0, hB⟩).2.1.1 hs
  obtain ⟨v, l, hv0, hvs, hsl, hlB, h1, h2, h3⟩ := common_tangent (volA α T) B s h0 hB hcont (fun ρ hρ => (hd ρ hρ).differentiableAt) hz ht
    (no_support (volA α T) B s h0 hB (fun ρ hρ => (hd ρ hρ).differentiableAt) hdd)
  have hvm : v ∈ Ioo 0 B := ⟨hv0, hvs.trans hB⟩
  have hlm : l ∈ Ioo 0 B := ⟨h0.trans hsl, hlB⟩
  rw [(hd v hvm).deriv, (hd l hlm).deriv] at h1 h2
  rw [(hd v hvm).deriv] at h3
  have hRT : 0 < R * T := mul_pos hR hT
  refine ⟨v, l, hv0, hvs, hsl, hlB, (coexist_volA hR hT hv0 hlm.1 (L.smooth v hvm) (L.smooth l hlm)).2 ⟨h1, h2⟩, ?_, fun ρ hρ0 hρB => ?_⟩
  · obtain ⟨ρ, hρ, hlt⟩ := hz (volA1 α T v)
    have := h3 ρ ⟨hρ.1.le, hρ.2.trans hB⟩
    rw [hz0] at hlt
    rw [volA_pressure]
    have : volA α T v - v * volA1 α T v < 0 := by linarith
    have := mul_neg_of_pos_of_neg hRT this
    linarith
  · have := mul_le_mul_of_nonneg_left (h3 ρ ⟨hρ0.le, hρB⟩) hRT.le
    rw [volA_pressure, volA_chemPot hv0.ne' (L.smooth v hvm)]
    unfold helmholtz totalAlpha
    have e : volA α T ρ = ρ * Real.log ρ + ρ * α T ρ := rfl
    rw [e] at this
    nlinarith

theorem unique_sat (c : ℝ → ℝ) (hR : 0 < R) (hT : 0 < T) {v l v' l' : ℝ} (hv : 0 < v) (hvl : v < l) (hl : l < B) (h : Coexist α c R T l v)
    (hv' : 0 < v') (hvl' : v' < l') (hl' : l' < B) (h' : Coexist α c R T l' v') : v = v' ∧ l = l' := by
  have hd (ρ : ℝ) (hρ : ρ ∈ Ioo 0 B) := volA_hasDeriv hρ.1.ne' (L.smooth ρ hρ)
  have hd2 (ρ : ℝ) (hρ : ρ ∈ Ioo 0 B) := volA1_hasDeriv hρ.1.ne' (L.smooth ρ hρ)
  rw [coexist_volA hR hT hv (hv.trans hvl) (L.smooth v ⟨hv, hvl.trans hl⟩) (L.smooth l ⟨hv.trans hvl, hl⟩)] at h
  rw [coexist_volA hR hT hv' (hv'.trans hvl') (L.smooth v' ⟨hv', hvl'.trans hl'⟩) (L.smooth l' ⟨hv'.trans hvl', hl'⟩)] at h'
  exact tangent_unique hd hd2 (L.single' hR hT) hv hvl hl h.1 h.2 hv' hvl' hl' h'.1 h'.2

/-- A saturation state brackets unstable densities, and both phases are mechanically stable. -/
theorem sat_slopes (c : ℝ → ℝ) (hR : 0 < R) (hT : 0 < T) {v l : ℝ} (hv : 0 < v) (hvl : v < l) (hl : l < B) (h : Coexist α c R T l v) :
    0 < deriv (totalPressure α R T) v ∧ 0 < deriv (totalPressure α R T) l ∧ ∃ s, v < s ∧ s < l ∧ deriv (totalPressure α R T) s < 0 := by
  have hd (ρ : ℝ) (hρ : ρ ∈ Ioo 0 B) := volA_hasDeriv hρ.1.ne' (L.smooth ρ hρ)
  have hd2 (ρ : ℝ) (hρ : ρ ∈ Ioo 0 B) := volA1_hasDeriv hρ.1.ne' (L.smooth ρ hρ)
  have hvm : v ∈ Ioo 0 B := ⟨hv, hvl.trans hl⟩
  have hlm : l ∈ Ioo 0 B := ⟨hv.trans hvl, hl⟩
  rw [coexist_volA hR hT hv (hv.trans hvl) (L.smooth v hvm) (L.smooth l hlm)] at h
  obtain ⟨a, b, hva, hab, hbl, ha, hb⟩ := tangent_spinodals hd hd2 hv hvl hl h.1 h.2
  have ha0 := hv.trans hva
  have hbB := hbl.trans hl
  refine ⟨(L.slope_sign hR hT hvm).1.2 ?_, (L.slope_sign hR hT hlm).1.2 ?_, (a + b) / 2, by linarith, by linarith, (L.slope_sign hR hT ⟨by linarith, by linarith⟩).2.1.2 ?_⟩
  · by_contra hc
    push Not at hc
    exact (L.single' hR hT v a b hv hva hab hbB hc hb.le).ne ha
  · by_contra hc
    push Not at hc
    exact (L.single' hR hT a b l ha0 hab hbl hl ha.le hc).ne hb
  · exact L.single' hR hT a _ b ha0 (by linarith) (by linarith) hbB ha.le hb.le

end Loop

/-! ## Cubic pressures have one unstable interval -/

/-- The sign of the slope of the quotient below. -/
noncomputable def spinPoly (s m u : ℝ) : ℝ := -1 + 3 * u + 3 * (s + m) * u ^ 2 + (m * s - m + s ^ 2) * u ^ 3

theorem spinPoly_mono {s m u v : ℝ} (h1 : 0 ≤ s + m) (h2 : 0 ≤ m * s - m + s ^ 2) (hu : 0 ≤ u) (huv : u < v) : spinPoly s m u < spinPoly s m v := by
  have e2 : u ^ 2 ≤ v ^ 2 := pow_le_pow_left₀ hu huv.le 2
  have e3 : u ^ 3 ≤ v ^ 3 := pow_le_pow_left₀ hu huv.le 3
  have := mul_le_mul_of_nonneg_left e2 h1
  have := mul_le_mul_of_nonneg_left e3 h2
  unfold spinPoly
  nlinarith

noncomputable def spinK (s m u : ℝ) : ℝ := (1 + s * u + m * u ^ 2) ^ 2 / ((2 * u + s * u ^ 2) * (1 - u) ^ 2)

theorem spinK_hasDeriv {s m u : ℝ} (hw : (2 * u + s * u ^ 2) * (1 - u) ^ 2 ≠ 0) :
    HasDerivAt (spinK s m) (2 * (1 + s * u + m * u ^ 2) * (1 - u) * spinPoly s m u / ((2 * u + s * u ^ 2) * (1 - u) ^ 2) ^ 2) u := by
  have e1 : HasDerivAt (fun r : ℝ => 1 + s * r + m * r ^ 2) (s + m * (2 * u)) u := by
    have := (((hasDerivAt_id u).const_mul s).const_add 1).add ((hasDerivAt_pow 2 u).const_mul m)
    refine this.congr_deriv ?_
    simp
  have e2 : HasDerivAt (fun r : ℝ => 2 * r + s * r ^ 2) (2 + s * (2 * u)) u := by
    have := ((hasDerivAt_id u).const_mul 2).add ((hasDerivAt_pow 2 u).const_mul s)
    refine this.congr_deriv ?_
    simp
  have e3 : HasDerivAt (fun r : ℝ => 1 - r) (-1) u := by simpa using (hasDerivAt_id u).const_sub 1
  have e4 : HasDerivAt (fun r : ℝ => (1 + s * r + m * r ^ 2) ^ 2 / ((2 * r + s * r ^ 2) * (1 - r) ^ 2)) _ u := (e1.pow 2).div (e2.mul (e3.pow 2)) hw
  refine e4.congr_deriv ?_
  congr 1
  unfold spinPoly
  simp only [Pi.pow_apply]
  ring

theorem spin_single {s m a κ x y z : ℝ} (hκ : 0 < κ) (h1 : 0 ≤ s + m) (h2 : 0 ≤ m * s - m + s ^ 2) (hs : -2 < s) (hq : ∀ u, 0 < u → u < 1 → 0 < 1 + s * u + m * u ^ 2)
    (h0 : 0 < x) (hxy : x < y) (hyz : y < z) (hz : z < 1)
    (hx : κ * (1 + s * x + m * x ^ 2) ^ 2 ≤ a * ((2 * x + s * x ^ 2) * (1 - x) ^ 2)) (hzz : κ * (1 + s * z + m * z ^ 2) ^ 2 ≤ a * ((2 * z + s * z ^ 2) * (1 - z) ^ 2)) :
    κ * (1 + s * y + m * y ^ 2) ^ 2 < a * ((2 * y + s * y ^ 2) * (1 - y) ^ 2) := by
  have hw (u : ℝ) (hu : 0 < u) (hu1 : u < 1) : 0 < (2 * u + s * u ^ 2) * (1 - u) ^ 2 := by
    refine mul_pos ?_ (pow_pos (by linarith) 2)
    have : 0 < u * (2 + s * u) := mul_pos hu (by nlinarith)
    linarith
  have key (u : ℝ) (hu : 0 < u) (hu1 : u < 1) : κ * (1 + s * u + m * u ^ 2) ^ 2 ≤ a * ((2 * u + s * u ^ 2) * (1 - u) ^ 2) ↔ κ * spinK s m u ≤ a := by
    unfold spinK
    rw [← mul_div_assoc, div_le_iff₀ (hw u hu hu1)]
  have key' (u : ℝ) (hu : 0 < u) (hu1 : u < 1) : κ * (1 + s * u + m * u ^ 2) ^ 2 < a * ((2 * u + s * u ^ 2) * (1 - u) ^ 2) ↔ κ * spinK s m u < a := by
    unfold spinK
    rw [← mul_div_assoc, div_lt_iff₀ (hw u hu hu1)]
  have hy0 := h0.trans hxy
  have hy1 := hyz.trans hz
  rw [key' y hy0 hy1]
  rw [key x h0 (hxy.trans hy1)] at hx
  rw [key z (hy0.trans hyz) hz] at hzz
  have der (u : ℝ) (hu : 0 < u) (hu1 : u < 1) := spinK_hasDeriv (s := s) (m := m) (hw u hu hu1).ne'
  rcases le_or_gt (spinPoly s m y) 0 with hp | hp
  · have : spinK s m y < spinK s m x := by
      have hanti : StrictAntiOn (spinK s m) (Icc x y) := by
        refine strictAntiOn_of_deriv_neg (convex_Icc x y) (fun u hu => (der u (h0.trans_le hu.1) (hu.2.trans_lt hy1)).continuousAt.continuousWithinAt) fun u hu => ?_
        rw [interior_Icc] at hu
        have hu0 := h0.trans hu.1
        have hu1 := hu.2.trans hy1
        rw [(der u hu0 hu1).deriv]
        refine div_neg_of_neg_of_pos ?_ (pow_pos (hw u hu0 hu1) 2)
        have hneg : spinPoly s m u < 0 := (spinPoly_mono h1 h2 hu0.le hu.2).trans_le hp
        have hpos : 0 < 2 * (1 + s * u + m * u ^ 2) * (1 - u) := mul_pos (mul_pos two_pos (hq u hu0 hu1)) (by linarith)
        have := mul_neg_of_pos_of_neg hpos hneg
        linarith
      exact hanti (left_mem_Icc.2 hxy.le) (right_mem_Icc.2 hxy.le) hxy
    exact (mul_lt_mul_of_pos_left this hκ).trans_le hx
  · have : spinK s m y < spinK s m z := by
      have hmono : StrictMonoOn (spinK s m) (Icc y z) := by
        refine strictMonoOn_of_deriv_pos (convex_Icc y z) (fun u hu => (der u (hy0.trans_le hu.1) (hu.2.trans_lt hz)).continuousAt.continuousWithinAt) fun u hu => ?_
        rw [interior_Icc] at hu
        have hu0 := hy0.trans hu.1
        have hu1 := hu.2.trans hz
        rw [(der u hu0 hu1).deriv]
        refine div_pos ?_ (pow_pos (hw u hu0 hu1) 2)
        have hpp : 0 < spinPoly s m u := hp.trans (spinPoly_mono h1 h2 hy0.le hu.1)
        have hpos : 0 < 2 * (1 + s * u + m * u ^ 2) * (1 - u) := mul_pos (mul_pos two_pos (hq u hu0 hu1)) (by linarith)
        have := mul_pos hpos hpp
        linarith
      exact hmono (left_mem_Icc.2 hyz.le) (right_mem_Icc.2 hyz.le) hyz
    exact (mul_lt_mul_of_pos_left this hκ).trans_le hzz

/-- The slope of a cubic pressure over a common positive denominator. -/
theorem cubicP1_frac {RT a b s m ρ : ℝ} (hb : b ≠ 0) (h1 : 1 - b * ρ ≠ 0) (h2 : 1 + s * (b * ρ) + m * (b * ρ) ^ 2 ≠ 0) :
    cubicP1 RT a b s m ρ = (b * RT * (1 + s * (b * ρ) + m * (b * ρ) ^ 2) ^ 2 - a * ((2 * (b * ρ) + s * (b * ρ) ^ 2) * (1 - b * ρ) ^ 2))
      / (b * (1 - b * ρ) ^ 2 * (1 + s * (b * ρ) + m * (b * ρ) ^ 2) ^ 2) := by
  unfold cubicP1
  have e : 1 + s * b * ρ + m * b ^ 2 * ρ ^ 2 = 1 + s * (b * ρ) + m * (b * ρ) ^ 2 := by ring
  rw [e]
  have e2 : 2 * ρ + s * b * ρ ^ 2 = (2 * (b * ρ) + s * (b * ρ) ^ 2) / b := by field_simp
  rw [e2]
  generalize 1 + s * (b * ρ) + m * (b * ρ) ^ 2 = q at h2 ⊢
  generalize 1 - b * ρ = w at h1 ⊢
  generalize 2 * (b * ρ) + s * (b * ρ) ^ 2 = n
  field_simp

/-- An isotherm with a cubic pressure. -/
structure CubicIso (α : ℝ → ℝ → ℝ) (R T a b s m : ℝ) : Prop where
  hR : 0 < R
  hT : 0 < T
  hb : 0 < b
  iso : ∀ ρ, 0 < ρ → b * ρ < 1 → totalPressure α R T ρ = cubicP (R * T) a b s m ρ
  den : ∀ u, 0 < u → u < 1 → 0 < 1 + s * u + m * u ^ 2

namespace CubicIso
variable {α : ℝ → ℝ → ℝ} {R T a b s m : ℝ} (C : CubicIso α R T a b s m)
include C

theorem slope {ρ : ℝ} (h0 : 0 < ρ) (h1 : b * ρ < 1) : ∃ d, 0 < d ∧ deriv (totalPressure α R T) ρ
    = (b * (R * T) * (1 + s * (b * ρ) + m * (b * ρ) ^ 2) ^ 2 - a * ((2 * (b * ρ) + s * (b * ρ) ^ 2) * (1 - b * ρ) ^ 2)) / d := by
  have hq := C.den (b * ρ) (mul_pos C.hb h0) h1
  have hev : totalPressure α R T =ᶠ[𝓝 ρ] cubicP (R * T) a b s m := by
    have h2 : ∀ᶠ r in 𝓝 ρ, b * r < 1 := ContinuousAt.eventually_lt (by fun_prop) (by fun_prop) h1
    filter_upwards [lt_mem_nhds h0, h2] with r hr hr1
    exact C.iso r hr hr1
  have e2 : 1 + s * b * ρ + m * b ^ 2 * ρ ^ 2 = 1 + s * (b * ρ) + m * (b * ρ) ^ 2 := by ring
  refine ⟨b * (1 - b * ρ) ^ 2 * (1 + s * (b * ρ) + m * (b * ρ) ^ 2) ^ 2, mul_pos (mul_pos C.hb (pow_pos (by linarith) 2)) (pow_pos hq 2), ?_⟩
  rw [hev.deriv_eq, (hasDerivAt_cubicP (sub_ne_zero.mpr h1.ne') (by rw [e2]; exact hq.ne')).deriv, cubicP1_frac C.hb.ne' (sub_ne_zero.mpr h1.ne') hq.ne']

theorem slope_neg {ρ : ℝ} (h0 : 0 < ρ) (h1 : b * ρ < 1) : deriv (totalPressure α R T) ρ < 0 ↔
    b * (R * T) * (1 + s * (b * ρ) + m * (b * ρ) ^ 2) ^ 2 < a * ((2 * (b * ρ) + s * (b * ρ) ^ 2) * (1 - b * ρ) ^ 2) := by
  obtain ⟨d, hd, e⟩ := C.slope h0 h1
  rw [e, div_lt_iff₀ hd, zero_mul, sub_neg]

theorem slope_nonpos {ρ : ℝ} (h0 : 0 < ρ) (h1 : b * ρ < 1) : deriv (totalPressure α R T) ρ ≤ 0 ↔
    b * (R * T) * (1 + s * (b * ρ) + m * (b * ρ) ^ 2) ^ 2 ≤ a * ((2 * (b * ρ) + s * (b * ρ) ^ 2) * (1 - b * ρ) ^ 2) := by
  obtain ⟨d, hd, e⟩ := C.slope h0 h1
  rw [e, div_le_iff₀ hd, zero_mul, sub_nonpos]

theorem single (h1 : 0 ≤ s + m) (h2 : 0 ≤ m * s - m + s ^ 2) (hs : -2 < s) (x y z : ℝ) (h0 : 0 < x) (hxy : x < y) (hyz : y < z) (hz : z < 1 / b)
    (hx : deriv (totalPressure α R T) x ≤ 0) (hzz : deriv (totalPressure α R T) z ≤ 0) : deriv (totalPressure α R T) y < 0 := by
  have hb := C.hb
  have hmem (ρ : ℝ) : ρ < 1 / b ↔ b * ρ < 1 := by rw [lt_div_iff₀ hb, mul_comm]
  have hz1 := (hmem z).1 hz
  have hy1 := (hmem y).1 (hyz.trans hz)
  have hx1 := (hmem x).1 ((hxy.trans hyz).trans hz)
  have hy0 := h0.trans hxy
  rw [C.slope_nonpos h0 hx1] at hx
  rw [C.slope_nonpos (hy0.trans hyz) hz1] at hzz
  rw [C.slope_neg hy0 hy1]
  exact spin_single (mul_pos hb (mul_pos C.hR C.hT)) h1 h2 hs C.den (mul_pos hb h0) (mul_lt_mul_of_pos_left hxy hb) (mul_lt_mul_of_pos_left hyz hb) hz1 hx hzz

end CubicIso

end Teqp.Lemmas

import Verif.Props.SatCurve

/-! # C181: saturated densities and heat of vaporisation of cubic models -/

set_option autoImplicit false

namespace Teqp.Props
open Teqp Teqp.Model Teqp.Spec Teqp.Calc Teqp.PureVLE Teqp.Lemmas Filter Topology Set

namespace Attract
variable {α : ℝ → ℝ → ℝ} {R b : ℝ} {A g : ℝ → ℝ} (H : Attract α R b A g)
include H

theorem gder {ρ : ℝ} (h0 : 0 < ρ) (h1 : b * ρ < 1) : HasDerivAt g (deriv g ρ) ρ := ((H.gsm ρ h0 h1).differentiableAt (by norm_num)).hasDerivAt

theorem press (hR : 0 < R) {T ρ : ℝ} (hT : 0 < T) (h0 : 0 < ρ) (h1 : b * ρ < 1) :
    totalPressure α R T ρ = R * T * ρ / (1 - b * ρ) - A T * (ρ ^ 2 * deriv g ρ) := by
  have h1' : 1 - b * ρ ≠ 0 := by linarith
  have e1 : HasDerivAt (fun r : ℝ => 1 - b * r) (-b) ρ := by simpa using ((hasDerivAt_id ρ).const_mul b).const_sub 1
  have e2 : HasDerivAt (fun r => helmholtz α R T r) ((-(-b / (1 - b * ρ)) - A T / (R * T) * deriv g ρ) * R * T) ρ := by
    have : (fun r => helmholtz α R T r) = fun r => (-Real.log (1 - b * r) - A T / (R * T) * g r) * R * T := by
      funext r
      unfold helmholtz
      rw [H.form T r hT]
    rw [this]
    exact ((((e1.log h1').neg).sub ((H.gder h0 h1).const_mul _)).mul_const R).mul_const T
  unfold totalPressure pressure
  rw [e2.deriv]
  have h1'' : 1 - ρ * b ≠ 0 := by rw [mul_comm]; exact h1'
  field_simp
  ring

/-- The pressure coefficient at constant density. -/
theorem press_T (hR : 0 < R) {T ρ : ℝ} (hT : 0 < T) (h0 : 0 < ρ) (h1 : b * ρ < 1) {q : ℝ → ℝ} {q' d : ℝ} (hq : HasDerivAt q q' T) (hqT : q T = ρ)
    (hd : HasDerivAt (fun T' => totalPressure α R T' (q T')) d T) :
    d = R * ρ / (1 - b * ρ) - deriv A T * (ρ ^ 2 * deriv g ρ) + deriv (totalPressure α R T) ρ * q' := by
  subst hqT
  have h1' : 1 - b * q T ≠ 0 := by linarith
  have G : DifferentiableAt ℝ (fun r => r ^ 2 * deriv g r) (q T) := by
    have : ContDiffAt ℝ 3 (deriv g) (q T) := by
      have e : deriv g = fun r => fderiv ℝ g r 1 := by funext r; exact (fderiv_apply_one_eq_deriv).symm
      rw [e]
      exact ((H.gsm _ h0 h1).fderiv_right (m := 3) (by norm_num)).clm_apply contDiffAt_const
    exact (differentiableAt_id.pow 2).mul (this.differentiableAt (by norm_num))
  have hG : HasDerivAt (fun r => r ^ 2 * deriv g r) (deriv (fun r => r ^ 2 * deriv g r) (q T)) (q T) := G.hasDerivAt
  generalize deriv (fun r => r ^ 2 * deriv g r) (q T) = G' at hG
  -- in density
  have r1 : HasDerivAt (fun r : ℝ => 1 - b * r) (-b) (q T) := by simpa using ((hasDerivAt_id (q T)).const_mul b).const_sub 1
  have r2 : HasDerivAt (fun r : ℝ => R * T * r / (1 - b * r) - A T * (r ^ 2 * deriv g r)) (R * T / (1 - b * q T) ^ 2 - A T * G') (q T) := by
    have e : HasDerivAt (fun r : ℝ => R * T * r) (R * T) (q T) := by simpa using (hasDerivAt_id (q T)).const_mul (R * T)
    refine ((e.div r1 h1').sub (hG.const_mul (A T))).congr_deriv ?_
    field_simp
    ring
  have near : ∀ᶠ r in 𝓝 (q T), 0 < r ∧ b * r < 1 :=
    (lt_mem_nhds h0).and ((continuousAt_const.mul continuousAt_id).eventually_lt continuousAt_const h1)
  have r3 : deriv (totalPressure α R T) (q T) = R * T / (1 - b * q T) ^ 2 - A T * G' := by
    refine HasDerivAt.deriv (r2.congr_of_eventuallyEq ?_)
    filter_upwards [near] with r hr
    exact H.press hR hT hr.1 hr.2
  -- along the curve
  have c1 : HasDerivAt (fun T' => 1 - b * q T') (-(b * q')) T := (hq.const_mul b).const_sub 1
  have c2 : HasDerivAt (fun T' => R * T' * q T') (R * q T + R * T * q') T := by
    have e : HasDerivAt (fun T' : ℝ => R * T') R T := by simpa using (hasDerivAt_id T).const_mul R
    exact e.mul hq
  have c3 : HasDerivAt (fun T' => q T' ^ 2 * deriv g (q T')) (G' * q') T := HasDerivAt.comp (h₂ := fun r => r ^ 2 * deriv g r) T hG hq
  have c4 : HasDerivAt A (deriv A T) T := ((H.Asm T hT).differentiableAt (by norm_num)).hasDerivAt
  have c5 : HasDerivAt (fun T' => R * T' * q T' / (1 - b * q T') - A T' * (q T' ^ 2 * deriv g (q T'))) _ T := (c2.div c1 h1').sub (c4.mul c3)
  have hev : (fun T' => totalPressure α R T' (q T')) =ᶠ[𝓝 T] fun T' => R * T' * q T' / (1 - b * q T') - A T' * (q T' ^ 2 * deriv g (q T')) := by
    filter_upwards [lt_mem_nhds hT, hq.continuousAt.eventually near] with T' hT' hr
    exact H.press hR hT' hr.1 hr.2
  have c6 := c5.congr_of_eventuallyEq hev
  rw [hd.unique c6, r3]
  generalize hw : 1 - b * q T = w at h1' ⊢
  have hbq : b * q T = 1 - w := by linarith
  field_simp
  linear_combination (R * T * q') * hbq

/-- The slope of the entropy against the volume is the pressure coefficient somewhere between the two phases. -/
theorem entropy_mean (hR : 0 < R) (hb : 0 < b) {T v l : ℝ} (hT : 0 < T) (hv : 0 < v) (hvl : v < l) (hl : b * l < 1) :
    ∃ c, v < c ∧ c < l ∧ (entropy (totalAlpha α fun _ => 0) R T v - entropy (totalAlpha α fun _ => 0) R T l) / (1 / v - 1 / l) =
      R * c / (1 - b * c) - deriv A T * (c ^ 2 * deriv g c) := by
  have inside (r : ℝ) (hr : r ∈ Icc v l) : 0 < r ∧ b * r < 1 := ⟨hv.trans_le hr.1, (mul_le_mul_of_nonneg_left hr.2 hb.le).trans_lt hl⟩
  have ds (r : ℝ) (hr : r ∈ Icc v l) : HasDerivAt (fun r => -(R * (Real.log r - Real.log (1 - b * r))) + deriv A T * g r)
      (-(R * (1 / r - -b / (1 - b * r))) + deriv A T * deriv g r) r := by
    obtain ⟨h0, h1⟩ := inside r hr
    have e1 : HasDerivAt (fun r : ℝ => 1 - b * r) (-b) r := by simpa using ((hasDerivAt_id r).const_mul b).const_sub 1
    have e2 : HasDerivAt (fun r : ℝ => Real.log r) (1 / r) r := by simpa using Real.hasDerivAt_log h0.ne'
    exact (((e2.sub (e1.log (by linarith))).const_mul R).neg).add ((H.gder h0 h1).const_mul _)
  have dv (r : ℝ) (hr : r ∈ Icc v l) : HasDerivAt (fun r : ℝ => 1 / r) (-(1 / r ^ 2)) r := by
    have := hasDerivAt_inv (inside r hr).1.ne'
    simpa [one_div] using this
  obtain ⟨c, hc, e⟩ := exists_ratio_hasDerivAt_eq_ratio_slope (fun r => -(R * (Real.log r - Real.log (1 - b * r))) + deriv A T * g r)
    (fun r => -(R * (1 / r - -b / (1 - b * r))) + deriv A T * deriv g r) hvl (fun r hr => (ds r hr).continuousAt.continuousWithinAt)
    (fun r hr => ds r (Ioo_subset_Icc_self hr)) (fun r => 1 / r) (fun r => -(1 / r ^ 2)) (fun r hr => (dv r hr).continuousAt.continuousWithinAt)
    (fun r hr => dv r (Ioo_subset_Icc_self hr))
  refine ⟨c, hc.1, hc.2, ?_⟩
  obtain ⟨h0, h1⟩ := inside c (Ioo_subset_Icc_self hc)
  have h1' : 1 - b * c ≠ 0 := by linarith
  have hw : 0 < 1 / v - 1 / l := sub_pos.2 (one_div_lt_one_div_of_lt hv hvl)
  rw [H.entropy_form hR hT, H.entropy_form hR hT, div_eq_iff hw.ne']
  have k : -(c ^ 2) * (-(R * (1 / c - -b / (1 - b * c))) + deriv A T * deriv g c) = R * c / (1 - b * c) - deriv A T * (c ^ 2 * deriv g c) := by
    generalize hw1 : 1 - b * c = u at *
    have hbq : b * c = 1 - u := by linarith
    field_simp
    linear_combination R * hbq
  rw [← k]
  generalize -(R * (1 / c - -b / (1 - b * c))) + deriv A T * deriv g c = s' at e ⊢
  generalize -(R * (Real.log l - Real.log (1 - b * l))) + deriv A T * g l = sl at e ⊢
  generalize -(R * (Real.log v - Real.log (1 - b * v))) + deriv A T * g v = sv at e ⊢
  have hc2 : c ^ 2 * (1 / c ^ 2) = 1 := by field_simp
  linear_combination (-(c ^ 2)) * e - (sv - sl) * hc2

end Attract

/-- What is claimed of the saturation densities `p T = (vapour, liquid)` up to the temperature `Tmax`: the liquid expands and the vapour becomes denser as the temperature rises, the slopes
that the code uses to follow the curve have these signs, and evaporation takes heat, whatever the ideal gas. -/
def SatShrinks (α : ℝ → ℝ → ℝ) (R Tmax : ℝ) (p : ℝ → ℝ × ℝ) : Prop :=
  (∀ T, 0 < T → T < Tmax → (∃ dL dV, satSlopes α R T ⟨(p T).2, (p T).1⟩ = (some dL, some dV) ∧ dL < 0 ∧ 0 < dV) ∧
    ∀ c : ℝ → ℝ, DifferentiableAt ℝ c T → enthalpy (totalAlpha α c) R T (p T).2 < enthalpy (totalAlpha α c) R T (p T).1) ∧
  StrictMonoOn (fun T => (p T).1) (Ioo 0 Tmax) ∧ StrictAntiOn (fun T => (p T).2) (Ioo 0 Tmax)

/-- **C181** for hard repulsion with an attraction that does not grow with temperature and whose pressure `A ρ² g'(ρ)` grows with density. -/
theorem sat_shrinks {α : ℝ → ℝ → ℝ} {R b Tmax : ℝ} {A g : ℝ → ℝ} (H : Attract α R b A g) (hR : 0 < R) (hb : 0 < b) (hL : ∀ T, 0 < T → Loop α R T (1 / b))
    (hA : ∀ T, 0 < T → T < Tmax → deriv A T ≤ 0) (hG : ∀ x y, 0 < x → x < y → b * y < 1 → x ^ 2 * deriv g x ≤ y ^ 2 * deriv g y) {p : ℝ → ℝ × ℝ} (hp : SatCurve α R b Tmax p) :
    SatShrinks α R Tmax p := by
  have mono {T x y : ℝ} (h0 : 0 < T) (h1 : T < Tmax) (hx : 0 < x) (hxy : x < y) (hy : b * y < 1) :
      R * x / (1 - b * x) - deriv A T * (x ^ 2 * deriv g x) < R * y / (1 - b * y) - deriv A T * (y ^ 2 * deriv g y) := by
    have e1 := mul_le_mul_of_nonpos_left (hG x y hx hxy hy) (hA T h0 h1)
    have hbx : b * x < b * y := mul_lt_mul_of_pos_left hxy hb
    have e2 : R * x / (1 - b * x) < R * y / (1 - b * y) :=
      div_lt_div₀ (mul_lt_mul_of_pos_left hxy hR) (by linarith) (mul_pos hR (hx.trans hxy)).le (by linarith)
    linarith
  have main (T : ℝ) (h0 : 0 < T) (h1 : T < Tmax) : ∃ dL dV, satSlopes α R T ⟨(p T).2, (p T).1⟩ = (some dL, some dV) ∧ dL < 0 ∧ 0 < dV ∧
      HasDerivAt (fun T' => (p T').2) dL T ∧ HasDerivAt (fun T' => (p T').1) dV T := by
    obtain ⟨hz, ⟨d, hd1, -, hd⟩, dL, dV, hs, gL, gV⟩ := hp.1 T h0 h1
    have P := (hz _).2 rfl
    have h2 := P.1.trans P.2.1
    have bl1 : b * (p T).1 < 1 := (mul_lt_mul_of_pos_left P.2.1 hb).trans P.2.2.1
    have sv : ContDiffAt ℝ 2 (unc α) (T, (p T).1) := (H.joint hR h0 P.1 bl1).of_le (by norm_num)
    have sl : ContDiffAt ℝ 2 (unc α) (T, (p T).2) := (H.joint hR h0 h2 P.2.2.1).of_le (by norm_num)
    have hev : ∀ᶠ T' in 𝓝 T, 0 < T' ∧ T' < Tmax := (lt_mem_nhds h0).and (gt_mem_nhds h1)
    have hco : ∀ᶠ T' in 𝓝 T, Coexist α (fun _ => 0) R T' (p T').2 (p T').1 :=
      hev.mono fun T' h => ((loop_satZero (hL T' h.1) (fun _ => 0) hR h.1 hb _).1 (((hp.1 T' h.1 h.2).1 _).2 rfl)).2.2.2
    have hcl := dpsatdT_clapeyron α (fun _ => 0) R T (p T).2 (p T).1 h0.ne' hR.ne' h2 P.1 sl sv (differentiableAt_const _) hco.self_of_nhds.2 P.2.1.ne'
    have hde : d = (entropy (totalAlpha α fun _ => 0) R T (p T).1 - entropy (totalAlpha α fun _ => 0) R T (p T).2) / (1 / (p T).1 - 1 / (p T).2) := by
      have := hd1.symm.trans hcl
      injection this
    obtain ⟨c, c1, c2, hc⟩ := H.entropy_mean hR hb h0 P.1 P.2.1 P.2.2.1
    rw [hc] at hde
    have hmem (ρ : ℝ) : ρ < 1 / b ↔ b * ρ < 1 := by rw [lt_div_iff₀ hb, mul_comm]
    obtain ⟨s1, s2, -⟩ := (hL T h0).sat_slopes (fun _ => 0) hR h0 P.1 P.2.1 ((hmem _).2 P.2.2.1) hco.self_of_nhds
    have eL := H.press_T hR h0 h2 P.2.2.1 gL rfl hd
    have hV : HasDerivAt (fun T' => totalPressure α R T' (p T').1) d T := hd.congr_of_eventuallyEq (hco.mono fun T' h => h.1.symm)
    have eV := H.press_T hR h0 P.1 bl1 gV rfl hV
    have m1 := mono h0 h1 P.1 c1 ((mul_lt_mul_of_pos_left c2 hb).trans P.2.2.1)
    have m2 := mono h0 h1 (P.1.trans c1) c2 P.2.2.1
    refine ⟨dL, dV, hs, ?_, ?_, gL, gV⟩
    · have : deriv (totalPressure α R T) (p T).2 * dL < 0 := by linarith
      exact neg_of_mul_neg_left (by linarith) s2.le
    · have : 0 < deriv (totalPressure α R T) (p T).1 * dV := by linarith
      exact (mul_pos_iff_of_pos_left s1).1 this
  refine ⟨fun T h0 h1 => ⟨?_, fun c dc => ?_⟩, ?_, ?_⟩
  · obtain ⟨dL, dV, hs, l, v, -⟩ := main T h0 h1
    exact ⟨dL, dV, hs, l, v⟩
  · obtain ⟨hz, ⟨d, hd1, hd0, -⟩, -⟩ := hp.1 T h0 h1
    have P := (hz _).2 rfl
    have h2 := P.1.trans P.2.1
    have bl1 : b * (p T).1 < 1 := (mul_lt_mul_of_pos_left P.2.1 hb).trans P.2.2.1
    have sv : ContDiffAt ℝ 2 (unc α) (T, (p T).1) := (H.joint hR h0 P.1 bl1).of_le (by norm_num)
    have sl : ContDiffAt ℝ 2 (unc α) (T, (p T).2) := (H.joint hR h0 h2 P.2.2.1).of_le (by norm_num)
    have hcl := hd1.symm.trans (dpsatdT_enthalpy α c R T (p T).2 (p T).1 h0.ne' h2 P.1 sl sv dc P.2.1.ne')
    have hde : d = (enthalpy (totalAlpha α c) R T (p T).1 - enthalpy (totalAlpha α c) R T (p T).2) / (T * (1 / (p T).1 - 1 / (p T).2)) := by
      injection hcl
    have hw : 0 < T * (1 / (p T).1 - 1 / (p T).2) := mul_pos h0 (sub_pos.2 (one_div_lt_one_div_of_lt P.1 P.2.1))
    rw [hde, div_pos_iff_of_pos_right hw] at hd0
    linarith
  · refine strictMonoOn_of_deriv_pos (convex_Ioo 0 Tmax) (fun T hT => ?_) fun T hT => ?_
    · obtain ⟨_, _, -, -, -, -, h⟩ := main T hT.1 hT.2
      exact h.continuousAt.continuousWithinAt
    · rw [interior_Ioo] at hT
      obtain ⟨_, _, -, -, h0, -, h⟩ := main T hT.1 hT.2
      rw [h.deriv]
      exact h0
  · refine strictAntiOn_of_deriv_neg (convex_Ioo 0 Tmax) (fun T hT => ?_) fun T hT => ?_
    · obtain ⟨_, _, -, -, -, h, -⟩ := main T hT.1 hT.2
      exact h.continuousAt.continuousWithinAt
    · rw [interior_Ioo] at hT
      obtain ⟨_, _, -, h0, -, h, -⟩ := main T hT.1 hT.2
      rw [h.deriv]
      exact h0

/-! ## The models -/

variable {ι : Type} [Fintype ι] [DecidableEq ι]

/-- The attraction of a cubic grows with density. -/
theorem cubic_attraction_mono {D1 D2 b x y : ℝ} (hb : 0 < b) (hD : D1 ≠ D2) (hD1 : -1 < D1) (hD2 : -1 < D2) (hx : 0 < x) (hxy : x < y) (hy : b * y < 1) :
    x ^ 2 * deriv (fun ρ => Real.log ((D1 * b * ρ + 1) / (D2 * b * ρ + 1)) / (b * (D1 - D2))) x ≤
      y ^ 2 * deriv (fun ρ => Real.log ((D1 * b * ρ + 1) / (D2 * b * ρ + 1)) / (b * (D1 - D2))) y := by
  have key (D : ℝ) (hD : -1 < D) {ρ : ℝ} (h0 : 0 < ρ) (h1 : b * ρ < 1) : 0 < D * b * ρ + 1 := by
    have h : 0 < b * ρ := mul_pos hb h0
    rw [mul_assoc]
    nlinarith [mul_pos (show 0 < D + 1 by linarith) h]
  have der (ρ : ℝ) (h0 : 0 < ρ) (h1 : b * ρ < 1) :
      HasDerivAt (fun ρ => Real.log ((D1 * b * ρ + 1) / (D2 * b * ρ + 1)) / (b * (D1 - D2))) (1 / ((D1 * b * ρ + 1) * (D2 * b * ρ + 1))) ρ := by
    have p1 := (key D1 hD1 h0 h1).ne'
    have p2 := (key D2 hD2 h0 h1).ne'
    have e2 : ∀ D : ℝ, HasDerivAt (fun r : ℝ => D * b * r + 1) (D * b) ρ := fun D => by
      simpa using ((hasDerivAt_id ρ).const_mul (D * b)).add_const 1
    have e4 : HasDerivAt (fun ρ => Real.log ((D1 * b * ρ + 1) / (D2 * b * ρ + 1)) / (b * (D1 - D2))) _ ρ :=
      (((e2 D1).div (e2 D2) p2).log (div_ne_zero p1 p2)).div_const (b * (D1 - D2))
    refine e4.congr_deriv ?_
    have hD' : D1 - D2 ≠ 0 := sub_ne_zero.mpr hD
    have hb' := hb.ne'
    simp only [Pi.div_apply]
    field_simp
    ring
  have bx : b * x < 1 := (mul_lt_mul_of_pos_left hxy hb).trans hy
  have h0 := hx.trans hxy
  rw [(der x hx bx).deriv, (der y h0 hy).deriv]
  have step (D : ℝ) (hD : -1 < D) : x / (D * b * x + 1) ≤ y / (D * b * y + 1) := by
    rw [div_le_div_iff₀ (key D hD hx bx) (key D hD h0 hy)]
    nlinarith
  have e (ρ : ℝ) (h0 : 0 < ρ) (h1 : b * ρ < 1) : ρ ^ 2 * (1 / ((D1 * b * ρ + 1) * (D2 * b * ρ + 1))) = ρ / (D1 * b * ρ + 1) * (ρ / (D2 * b * ρ + 1)) := by
    have p1 := (key D1 hD1 h0 h1).ne'
    have p2 := (key D2 hD2 h0 h1).ne'
    field_simp
  rw [e x hx bx, e y h0 hy]
  exact mul_le_mul (step D1 hD1) (step D2 hD2) (div_pos hx (key D2 hD2 hx bx)).le (div_pos h0 (key D1 hD1 h0 hy)).le

/-- **C181 van der Waals.** -/
theorem vdw_sat_shrinks (Tc pc : ι → ℝ) (i : ι) (hTc : 0 < Tc i) (hp : 0 < pc i) :
    ∃ p, SatCurve (fun T r => (VdWMix.ofCritical Tc pc).alphar T r (Pi.single i 1)) RuvdW ((VdWMix.ofCritical Tc pc).bi i) (Tc i) p ∧
      SatShrinks (fun T r => (VdWMix.ofCritical Tc pc).alphar T r (Pi.single i 1)) RuvdW (Tc i) p := by
  obtain ⟨p, hc⟩ := vdw_sat_curve Tc pc i hTc hp
  have hR := RuvdW_pos
  have hb : (VdWMix.ofCritical Tc pc).bi i = 1 / 8 * RuvdW * Tc i / pc i := rfl
  have hbp : 0 < (VdWMix.ofCritical Tc pc).bi i := by rw [hb]; positivity
  have H : Attract (fun T r => (VdWMix.ofCritical Tc pc).alphar T r (Pi.single i 1)) RuvdW ((VdWMix.ofCritical Tc pc).bi i)
      (fun _ => (VdWMix.ofCritical Tc pc).a (Pi.single i 1)) (fun ρ => ρ) :=
    ⟨fun T ρ _ => by unfold VdWMix.alphar; rw [vdWMix_b_single], fun _ _ _ => contDiffAt_id, fun _ _ _ h _ => h.le, fun _ _ => contDiffAt_const⟩
  refine ⟨p, hc, sat_shrinks H hR hbp (fun T hT => ?_) (fun T _ _ => by simp) (fun x y hx hxy _ => ?_) hc⟩
  · have := (vdw_loop (VdWMix.ofCritical Tc pc) (Pi.single i 1) T hT (by rw [vdWMix_b_single]; exact hbp)).1
    rwa [vdWMix_b_single] at this
  · simp only [deriv_id'', mul_one]
    exact pow_le_pow_left₀ hx.le hxy.le 2

/-- **C181 Soave-Redlich-Kwong**, for acentric factors with a slope of the alpha function that is not negative. -/
theorem srk_sat_shrinks (Tc pc ω : ι → ℝ) (k : ι → ι → ℝ) (R : ℝ) (i : ι) (hR : 0 < R) (hTc : 0 < Tc i) (hp : 0 < pc i) (hk : k i i = 0) (h0 : 0 ≤ mSRK (ω i)) :
    ∃ p, SatCurve (fun T r => (canonicalSRK Tc pc ω k R).alphar T r (Pi.single i 1)) R (OmegaB_SRK * R * Tc i / pc i) (Tc i) p ∧
      SatShrinks (fun T r => (canonicalSRK Tc pc ω k R).alphar T r (Pi.single i 1)) R (Tc i) p := by
  obtain ⟨p, hc⟩ := srk_sat_curve Tc pc ω k R i hR hTc hp hk h0
  have hu0 := srkU_facts.1
  have hA : OmegaA_SRK = 1 / (9 * srkU) := rfl
  have hAp : 0 ≤ OmegaA_SRK * (R * Tc i) ^ 2 / pc i := by rw [hA]; positivity
  have hb : (canonicalSRK Tc pc ω k R).get_b (Pi.single i 1) = OmegaB_SRK * R * Tc i / pc i := cubic_b_single _ i
  have ha (T : ℝ) (hT : 0 < T) : (canonicalSRK Tc pc ω k R).get_a T (Pi.single i 1) = OmegaA_SRK * (R * Tc i) ^ 2 / pc i * (AlphaFn.basic (Tc i) (mSRK (ω i))).eval T :=
    cubic_pure_a Tc pc 1 0 OmegaA_SRK OmegaB_SRK R (fun i => .basic (Tc i) (mSRK (ω i))) k i T (by rw [hA]; positivity) hp hT.le hTc.le hk
  have hbp : 0 < OmegaB_SRK * R * Tc i / pc i := (srk_pure_loop Tc pc ω k R 1 i hR one_pos hTc hp hk).1
  have hD : (canonicalSRK Tc pc ω k R).Delta1 ≠ (canonicalSRK Tc pc ω k R).Delta2 := by norm_num [canonicalSRK, Cubic.build]
  have hD1 : -1 < (canonicalSRK Tc pc ω k R).Delta1 := by norm_num [canonicalSRK, Cubic.build]
  have hD2 : -1 < (canonicalSRK Tc pc ω k R).Delta2 := by norm_num [canonicalSRK, Cubic.build]
  have H := cubic_attract (canonicalSRK Tc pc ω k R) (Pi.single i 1) (fun T => OmegaA_SRK * (R * Tc i) ^ 2 / pc i * (AlphaFn.basic (Tc i) (mSRK (ω i))).eval T)
    (by rw [hb]; exact hbp) hD hD1 hD2 ha (fun T hT => contDiffAt_const.mul (soave_slope hTc hT).1)
  rw [hb] at H
  refine ⟨p, hc, sat_shrinks H hR hbp (fun T hT => (srk_pure_loop Tc pc ω k R T i hR hT hTc hp hk).2.1) (fun T hT h => ?_)
    (fun x y hx hxy hy => cubic_attraction_mono hbp hD hD1 hD2 hx hxy hy) hc⟩
  rw [deriv_const_mul_field]
  exact mul_nonpos_of_nonneg_of_nonpos hAp ((soave_slope hTc hT).2 h0 h.le)

/-- **C181 Peng-Robinson.** -/
theorem pr_sat_shrinks (Tc pc ω : ι → ℝ) (k : ι → ι → ℝ) (R : ℝ) (i : ι) (hR : 0 < R) (hTc : 0 < Tc i) (hp : 0 < pc i) (hk : k i i = 0) (h0 : 0 ≤ mPR (ω i)) :
    ∃ p, SatCurve (fun T r => (prModel Tc pc ω k R).alphar T r (Pi.single i 1)) R (OmegaB_PR * R * Tc i / pc i) (Tc i / (1 + 1e-18)) p ∧
      SatShrinks (fun T r => (prModel Tc pc ω k R).alphar T r (Pi.single i 1)) R (Tc i / (1 + 1e-18)) p := by
  obtain ⟨p, hc⟩ := pr_sat_curve Tc pc ω k R i hR hTc hp hk h0
  have hAp : 0 ≤ OmegaA_PR * (R * Tc i) ^ 2 / pc i := by unfold OmegaA_PR; positivity
  have hb : (prModel Tc pc ω k R).get_b (Pi.single i 1) = OmegaB_PR * R * Tc i / pc i := cubic_b_single _ i
  have ha (T : ℝ) (hT : 0 < T) : (prModel Tc pc ω k R).get_a T (Pi.single i 1) = OmegaA_PR * (R * Tc i) ^ 2 / pc i * (AlphaFn.basic (Tc i) (mPR (ω i))).eval T :=
    cubic_pure_a Tc pc _ _ OmegaA_PR OmegaB_PR R (fun i => .basic (Tc i) (mPR (ω i))) k i T (by unfold OmegaA_PR; norm_num) hp hT.le hTc.le hk
  have hbp : 0 < OmegaB_PR * R * Tc i / pc i := (pr_pure_loop Tc pc ω k R 1 i hR one_pos hTc hp).1
  obtain ⟨hD, hD1, hD2, -, -⟩ := prDeltas (c := prModel Tc pc ω k R) rfl rfl
  have H := cubic_attract (prModel Tc pc ω k R) (Pi.single i 1) (fun T => OmegaA_PR * (R * Tc i) ^ 2 / pc i * (AlphaFn.basic (Tc i) (mPR (ω i))).eval T)
    (by rw [hb]; exact hbp) hD hD1 hD2 ha (fun T hT => contDiffAt_const.mul (soave_slope hTc hT).1)
  rw [hb] at H
  refine ⟨p, hc, sat_shrinks H hR hbp (fun T hT => (pr_pure_loop Tc pc ω k R T i hR hT hTc hp).2) (fun T hT h => ?_)
    (fun x y hx hxy hy => cubic_attraction_mono hbp hD hD1 hD2 hx hxy hy) hc⟩
  have h' : T < Tc i := h.trans (div_lt_self hTc (by norm_num))
  rw [deriv_const_mul_field]
  exact mul_nonpos_of_nonneg_of_nonpos hAp ((soave_slope hTc hT).2 h0 h'.le)

/-- Saturated ethane at 200 K and 250 K. -/
example : ∃ p, SatCurve (fun T r => (canonicalSRK (ι := Fin 2) ![190.5, 305.3] ![4.6e6, 4.87e6] ![0.011, 0.099] (fun _ _ => 0) 8.314).alphar T r (Pi.single 1 1)) 8.314
      (OmegaB_SRK * 8.314 * 305.3 / 4.87e6) 305.3 p ∧ (p 200).1 < (p 250).1 ∧ (p 250).2 < (p 200).2 := by
  obtain ⟨p, hp, -, h1, h2⟩ := srk_sat_shrinks (ι := Fin 2) ![190.5, 305.3] ![4.6e6, 4.87e6] ![0.011, 0.099] (fun _ _ => 0) 8.314 1 (by norm_num) (by norm_num) (by norm_num) rfl
    (by norm_num [mSRK])
  exact ⟨p, hp, h1 ⟨by norm_num, by norm_num⟩ ⟨by norm_num, by norm_num⟩ (by norm_num), h2 ⟨by norm_num, by norm_num⟩ ⟨by norm_num, by norm_num⟩ (by norm_num)⟩

example : ∃ p, SatCurve (fun T r => (prModel (ι := Fin 1) ![617.7] ![2.103e6] ![0.488] (fun _ _ => 0) 8.314).alphar T r (Pi.single 0 1)) 8.314
    (OmegaB_PR * 8.314 * 617.7 / 2.103e6) (617.7 / (1 + 1e-18)) p ∧ SatShrinks (fun T r => (prModel (ι := Fin 1) ![617.7] ![2.103e6] ![0.488] (fun _ _ => 0) 8.314).alphar T r (Pi.single 0 1))
      8.314 (617.7 / (1 + 1e-18)) p :=
  pr_sat_shrinks (ι := Fin 1) ![617.7] ![2.103e6] ![0.488] (fun _ _ => 0) 8.314 0 (by norm_num) (by norm_num) (by norm_num) rfl (by norm_num [mPR])

example : ∃ p, SatCurve (fun T r => (VdWMix.ofCritical (ι := Fin 2) ![150, 300] ![4e6, 5e6]).alphar T r (Pi.single 1 1)) RuvdW
    ((VdWMix.ofCritical (ι := Fin 2) ![150, 300] ![4e6, 5e6]).bi 1) 300 p ∧ SatShrinks (fun T r => (VdWMix.ofCritical (ι := Fin 2) ![150, 300] ![4e6, 5e6]).alphar T r (Pi.single 1 1)) RuvdW 300 p :=
  vdw_sat_shrinks (ι := Fin 2) ![150, 300] ![4e6, 5e6] 1 (by norm_num) (by norm_num)

end Teqp.Props

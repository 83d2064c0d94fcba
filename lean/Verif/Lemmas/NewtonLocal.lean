import Verif.Lemmas.SatCurve
import Mathlib.Analysis.Normed.Module.FiniteDimension

/-! # Newton's method near a regular zero -/

set_option autoImplicit false

namespace Teqp.Lemmas
open Teqp Teqp.Model Filter Topology Set

/-- Near a zero with an injective derivative, a Newton step reduces the distance by any given factor and is bounded by the residual. -/
theorem newton_local {E F : Type} [NormedAddCommGroup E] [NormedSpace ℝ E] [NormedAddCommGroup F] [NormedSpace ℝ F] {f : E → F} {p : E} {c q : ℝ}
    (hf : ContDiffAt ℝ 1 f p) (h0 : f p = 0) (hc : 0 < c) (hl : ∀ w, c * ‖w‖ ≤ ‖fderiv ℝ f p w‖) (hq : 0 < q) :
    ∀ᶠ r in 𝓝 p, ∀ v, fderiv ℝ f r v = -f r → ‖r + v - p‖ ≤ q * ‖r - p‖ ∧ ‖v‖ ≤ 2 / c * ‖f r‖ := by
  have hJ : ContinuousAt (fderiv ℝ f) p := (hf.fderiv_right (m := 0) (by norm_num)).continuousAt
  have e1 : ∀ᶠ r in 𝓝 p, dist (fderiv ℝ f r) (fderiv ℝ f p) < min (c / 2) (c * q / 4) := Metric.tendsto_nhds.1 hJ _ (by positivity)
  have e2 := ((hf.differentiableAt (by norm_num)).hasFDerivAt.isLittleO).bound (show 0 < c * q / 4 by positivity)
  filter_upwards [e1, e2] with r h1 h2 v hv
  rw [dist_eq_norm] at h1
  have hw (w : E) : c / 2 * ‖w‖ ≤ ‖fderiv ℝ f r w‖ := by
    have a := (fderiv ℝ f r - fderiv ℝ f p).le_opNorm w
    have b : ‖fderiv ℝ f p w‖ ≤ ‖fderiv ℝ f r w‖ + ‖(fderiv ℝ f r - fderiv ℝ f p) w‖ := by
      have : fderiv ℝ f p w = fderiv ℝ f r w - (fderiv ℝ f r - fderiv ℝ f p) w := by simp
      rw [this]
      exact norm_sub_le _ _
    have d : ‖fderiv ℝ f r - fderiv ℝ f p‖ * ‖w‖ ≤ c / 2 * ‖w‖ := mul_le_mul_of_nonneg_right (h1.le.trans (min_le_left _ _)) (norm_nonneg _)
    have := hl w
    linarith
  constructor
  · have key : fderiv ℝ f r (r + v - p) = (fderiv ℝ f r - fderiv ℝ f p) (r - p) - (f r - f p - fderiv ℝ f p (r - p)) := by
      rw [show r + v - p = (r - p) + v by abel, map_add, hv, h0]
      simp only [ContinuousLinearMap.sub_apply]
      abel
    have a := (fderiv ℝ f r - fderiv ℝ f p).le_opNorm (r - p)
    have d : ‖fderiv ℝ f r - fderiv ℝ f p‖ * ‖r - p‖ ≤ c * q / 4 * ‖r - p‖ := mul_le_mul_of_nonneg_right (h1.le.trans (min_le_right _ _)) (norm_nonneg _)
    have g := hw (r + v - p)
    rw [key] at g
    have g' := g.trans (norm_sub_le _ _)
    have : c / 2 * ‖r + v - p‖ ≤ c / 2 * (q * ‖r - p‖) := by linarith
    exact le_of_mul_le_mul_left this (by positivity)
  · have g := hw v
    rw [hv, norm_neg] at g
    rw [div_mul_eq_mul_div, le_div_iff₀ hc]
    linarith

/-- The same for two equations in two unknowns, with the Jacobian matrix by its entries. -/
theorem newton_plane {F : ℝ × ℝ → ℝ × ℝ} {M : ℝ × ℝ → M2} {p : ℝ × ℝ} {q : ℝ} (hF : ContDiffAt ℝ 1 F p) (h0 : F p = 0)
    (hM : ∀ᶠ r in 𝓝 p, HasDerivAt (fun x => F (x, r.2)) ((M r).a00, (M r).a10) r.1 ∧ HasDerivAt (fun y => F (r.1, y)) ((M r).a01, (M r).a11) r.2)
    (hd : (M p).a00 * (M p).a11 - (M p).a01 * (M p).a10 ≠ 0) (hq : 0 < q) :
    ∃ K, 0 < K ∧ ∀ᶠ r in 𝓝 p, (M r).a00 * (M r).a11 - (M r).a01 * (M r).a10 ≠ 0 ∧
      ∀ v : ℝ × ℝ, (M r).a00 * v.1 + (M r).a01 * v.2 = -(F r).1 → (M r).a10 * v.1 + (M r).a11 * v.2 = -(F r).2 → ‖r + v - p‖ ≤ q * ‖r - p‖ ∧ ‖v‖ ≤ K * ‖F r‖ := by
  have hdiff : ∀ᶠ r in 𝓝 p, DifferentiableAt ℝ F r := (hF.eventually (by norm_num)).mono fun r h => h.differentiableAt (by norm_num)
  have hcol : ∀ᶠ r in 𝓝 p, fderiv ℝ F r (1, 0) = ((M r).a00, (M r).a10) ∧ fderiv ℝ F r (0, 1) = ((M r).a01, (M r).a11) := by
    filter_upwards [hM, hdiff] with r h d
    have g1 : HasDerivAt (fun x : ℝ => (x, r.2)) ((1 : ℝ), (0 : ℝ)) r.1 := (hasDerivAt_id r.1).prodMk (hasDerivAt_const _ _)
    have g2 : HasDerivAt (fun y : ℝ => (r.1, y)) ((0 : ℝ), (1 : ℝ)) r.2 := (hasDerivAt_const _ _).prodMk (hasDerivAt_id r.2)
    exact ⟨(d.hasFDerivAt.comp_hasDerivAt (f := fun x : ℝ => (x, r.2)) r.1 g1).unique h.1, (d.hasFDerivAt.comp_hasDerivAt (f := fun y : ℝ => (r.1, y)) r.2 g2).unique h.2⟩
  have happ (r : ℝ × ℝ) (v : ℝ × ℝ) : fderiv ℝ F r v = v.1 • fderiv ℝ F r (1, 0) + v.2 • fderiv ℝ F r (0, 1) := by
    rw [← map_smul, ← map_smul, ← map_add]
    congr 1
    ext <;> simp
  have hp := hcol.self_of_nhds
  have hker : LinearMap.ker (fderiv ℝ F p : ℝ × ℝ →ₗ[ℝ] ℝ × ℝ) = ⊥ := by
    rw [LinearMap.ker_eq_bot]
    have := invertible_of_columns (fderiv ℝ F p) (by rw [hp.1, hp.2]; exact hd)
    exact this.injective
  obtain ⟨K, hK, ha⟩ := LinearMap.exists_antilipschitzWith _ hker
  have hK' : (0 : ℝ) < K := hK
  have hl (w : ℝ × ℝ) : 1 / (K : ℝ) * ‖w‖ ≤ ‖fderiv ℝ F p w‖ := by
    have := ha.le_mul_dist w 0
    rw [dist_zero_right, map_zero, dist_zero_right] at this
    rw [one_div, inv_mul_le_iff₀ hK']
    exact this
  have hJ : ContinuousAt (fderiv ℝ F) p := (hF.fderiv_right (m := 0) (by norm_num)).continuousAt
  have hc (w : ℝ × ℝ) : ContinuousAt (fun r => fderiv ℝ F r w) p := hJ.clm_apply continuousAt_const
  have hdet : ContinuousAt (fun r => (fderiv ℝ F r (1, 0)).1 * (fderiv ℝ F r (0, 1)).2 - (fderiv ℝ F r (0, 1)).1 * (fderiv ℝ F r (1, 0)).2) p :=
    ((hc _).fst.mul (hc _).snd).sub ((hc _).fst.mul (hc _).snd)
  have hdet' := hdet.eventually_ne (y := 0) (by rw [hp.1, hp.2]; exact hd)
  refine ⟨2 / (1 / (K : ℝ)), by positivity, ?_⟩
  filter_upwards [newton_local hF h0 (by positivity) hl hq, hcol, hdet'] with r hr hcr hdr
  rw [hcr.1, hcr.2] at hdr
  refine ⟨hdr, fun v h1 h2 => hr v ?_⟩
  rw [happ, hcr.1, hcr.2]
  ext
  · simp only [Prod.fst_add, Prod.smul_fst, smul_eq_mul, Prod.fst_neg]
    linarith
  · simp only [Prod.snd_add, Prod.smul_snd, smul_eq_mul, Prod.snd_neg]
    linarith

end Teqp.Lemmas

import Verif.Props.Saturation
import Verif.Lemmas.SatCurve

/-! # C174: the saturation curve of cubic models -/

set_option autoImplicit false

namespace Teqp.Props
open Teqp Teqp.Model Teqp.Spec Teqp.Calc Teqp.PureVLE Teqp.Lemmas Filter Topology Set

/-- **Saturation densities are differentiable functions of temperature.** -/
theorem sat_differentiable {α : ℝ → ℝ → ℝ} {R T b : ℝ} {p : ℝ → ℝ × ℝ} (hR : 0 < R) (hT : 0 < T) (hb : 0 < b) (hL : ∀ᶠ T' in 𝓝 T, Loop α R T' (1 / b))
    (hp : ∀ᶠ T' in 𝓝 T, SatZero α R T' b (p T')) (sv : ContDiffAt ℝ 2 (unc α) (T, (p T).1)) (sl : ContDiffAt ℝ 2 (unc α) (T, (p T).2)) : DifferentiableAt ℝ p T := by
  have L := hL.self_of_nhds
  have P := hp.self_of_nhds
  have hmem (ρ : ℝ) : ρ < 1 / b ↔ b * ρ < 1 := by rw [lt_div_iff₀ hb, mul_comm]
  have P' := (loop_satZero L (fun _ => 0) hR hT hb (p T)).1 P
  have hl := (hmem _).2 P.2.2.1
  have h2 := P.1.trans P.2.1
  obtain ⟨s1, s2, -⟩ := L.sat_slopes (fun _ => 0) hR hT P.1 P.2.1 hl P'.2.2.2
  have c1 := (L.slope_sign hR hT ⟨P.1, P.2.1.trans hl⟩).1.1 s1
  have c2 := (L.slope_sign hR hT ⟨h2, hl⟩).1.1 s2
  obtain ⟨ψ, e, hd, hz⟩ := sat_implicit P.1.ne' h2.ne' P.2.1.ne sv sl c1.ne' c2.ne'
  have hint (T' v l : ℝ) : satMap α (T', v, l) = (0, 0) ↔ volA1 α T' v = volA1 α T' l ∧ volA α T' v - v * volA1 α T' v = volA α T' l - l * volA1 α T' l := by
    have hv (r : ℝ) : volA α T' r - r * volA1 α T' r = -(r + r ^ 2 * drn α 1 T' r) := by unfold volA volA1; ring
    rw [hv, hv]
    simp only [satMap, Prod.mk.injEq, sub_eq_zero, neg_inj]
    constructor
    · rintro ⟨h1, h2⟩; exact ⟨h2.symm, h1.symm⟩
    · rintro ⟨h1, h2⟩; exact ⟨h2.symm, h1.symm⟩
  have h0 : satMap α (T, (p T).1, (p T).2) = (0, 0) :=
    (hint _ _ _).2 ((coexist_volA hR hT P.1 h2 (L.smooth _ ⟨P.1, P.2.1.trans hl⟩) (L.smooth _ ⟨h2, hl⟩)).1 P'.2.2.2)
  rw [h0] at hz
  have hcv : ContinuousAt (fun T' => (ψ T').1) T := hd.continuousAt.fst
  have hcl : ContinuousAt (fun T' => (ψ T').2) T := hd.continuousAt.snd
  have q1 : ∀ᶠ T' in 𝓝 T, 0 < (ψ T').1 := continuousAt_const.eventually_lt hcv (by rw [e]; exact P.1)
  have q2 : ∀ᶠ T' in 𝓝 T, (ψ T').1 < (ψ T').2 := hcv.eventually_lt hcl (by rw [e]; exact P.2.1)
  have q3 : ∀ᶠ T' in 𝓝 T, (ψ T').2 < 1 / b := hcl.eventually_lt continuousAt_const (by rw [e]; exact hl)
  refine hd.congr_of_eventuallyEq ?_
  filter_upwards [hL, hp, hz, q1, q2, q3, lt_mem_nhds hT] with T' L' p' z' r1 r2 r3 hT'
  have p'' := (loop_satZero L' (fun _ => 0) hR hT' hb (p T')).1 p'
  have hco : Coexist α (fun _ => 0) R T' (ψ T').2 (ψ T').1 :=
    (coexist_volA hR hT' r1 (r1.trans r2) (L'.smooth _ ⟨r1, r2.trans r3⟩) (L'.smooth _ ⟨r1.trans r2, r3⟩)).2 ((hint _ _ _).1 z')
  obtain ⟨e1, e2⟩ := L'.unique_sat (fun _ => 0) hR hT' p''.1 p''.2.1 ((hmem _).2 p''.2.2.1) p''.2.2.2 r1 r2 r3 hco
  exact Prod.ext e1 e2

/-- Hard repulsion of the van der Waals kind with an attraction `A(T)` times an increasing function of the density. -/
structure Attract (α : ℝ → ℝ → ℝ) (R b : ℝ) (A g : ℝ → ℝ) : Prop where
  form : ∀ T ρ, 0 < T → α T ρ = -Real.log (1 - b * ρ) - A T / (R * T) * g ρ
  gsm : ∀ ρ, 0 < ρ → b * ρ < 1 → ContDiffAt ℝ 4 g ρ
  gmono : ∀ x y, 0 < x → x < y → b * y < 1 → g x ≤ g y
  Asm : ∀ T, 0 < T → ContDiffAt ℝ 4 A T

namespace Attract
variable {α : ℝ → ℝ → ℝ} {R b : ℝ} {A g : ℝ → ℝ} (H : Attract α R b A g)
include H

theorem joint (hR : 0 < R) {T ρ : ℝ} (hT : 0 < T) (h0 : 0 < ρ) (h1 : b * ρ < 1) : ContDiffAt ℝ 4 (unc α) (T, ρ) := by
  have hd : ContDiffAt ℝ 4 (fun q : ℝ × ℝ => -Real.log (1 - b * q.2) - A q.1 / (R * q.1) * g q.2) (T, ρ) := by
    have d1 : ContDiffAt ℝ 4 (fun q : ℝ × ℝ => 1 - b * q.2) (T, ρ) := by fun_prop
    have d2 : ContDiffAt ℝ 4 (fun q : ℝ × ℝ => A q.1) (T, ρ) := ContDiffAt.comp (g := A) (T, ρ) (H.Asm T hT) contDiffAt_fst
    have d3 : ContDiffAt ℝ 4 (fun q : ℝ × ℝ => g q.2) (T, ρ) := ContDiffAt.comp (g := g) (T, ρ) (H.gsm ρ h0 h1) contDiffAt_snd
    have d4 : ContDiffAt ℝ 4 (fun q : ℝ × ℝ => R * q.1) (T, ρ) := by fun_prop
    exact (d1.log (sub_ne_zero.mpr h1.ne')).neg.sub ((d2.div d4 (mul_pos hR hT).ne').mul d3)
  refine hd.congr_of_eventuallyEq ?_
  have : ∀ᶠ q : ℝ × ℝ in 𝓝 (T, ρ), 0 < q.1 := continuousAt_const.eventually_lt continuousAt_fst hT
  filter_upwards [this] with q hq
  exact H.form q.1 q.2 hq

theorem entropy_form (hR : 0 < R) {T ρ : ℝ} (hT : 0 < T) :
    entropy (totalAlpha α fun _ => 0) R T ρ = -(R * (Real.log ρ - Real.log (1 - b * ρ))) + deriv A T * g ρ := by
  unfold entropy
  have hd : HasDerivAt (fun T' => R * (Real.log ρ - Real.log (1 - b * ρ)) * T' - A T' * g ρ) (R * (Real.log ρ - Real.log (1 - b * ρ)) - deriv A T * g ρ) T := by
    have h1 : HasDerivAt (fun T' : ℝ => R * (Real.log ρ - Real.log (1 - b * ρ)) * T') (R * (Real.log ρ - Real.log (1 - b * ρ))) T := by
      simpa using (hasDerivAt_id T).const_mul (R * (Real.log ρ - Real.log (1 - b * ρ)))
    exact h1.sub (((H.Asm T hT).differentiableAt (by norm_num)).hasDerivAt.mul_const (g ρ))
  have hev : (fun T' => helmholtz (totalAlpha α fun _ => 0) R T' ρ) =ᶠ[𝓝 T] fun T' => R * (Real.log ρ - Real.log (1 - b * ρ)) * T' - A T' * g ρ := by
    filter_upwards [lt_mem_nhds hT] with T' hT'
    unfold helmholtz totalAlpha
    rw [H.form T' ρ hT']
    field_simp
    ring
  rw [hev.deriv_eq, hd.deriv]
  ring

/-- The vapour has the larger entropy, where the attraction does not grow with temperature. -/
theorem entropy_lt (hR : 0 < R) {T v l : ℝ} (hT : 0 < T) (hb : 0 < b) (hv : 0 < v) (hvl : v < l) (hl : b * l < 1) (hA : deriv A T ≤ 0) :
    entropy (totalAlpha α fun _ => 0) R T l < entropy (totalAlpha α fun _ => 0) R T v := by
  rw [H.entropy_form hR hT, H.entropy_form hR hT]
  have e1 := Real.log_lt_log hv hvl
  have e2 : Real.log (1 - b * l) < Real.log (1 - b * v) := Real.log_lt_log (by linarith) (by nlinarith)
  have e3 := mul_le_mul_of_nonpos_left (H.gmono v l hv hvl hl) hA
  have e4 := mul_lt_mul_of_pos_left (show Real.log v - Real.log (1 - b * v) < Real.log l - Real.log (1 - b * l) by linarith) hR
  linarith

end Attract

/-- What is claimed of the saturation densities `p T = (vapour, liquid)` up to the temperature `Tmax`: they are the only zeros of the residual, differentiable with the slopes that the code
predicts, the code's slope of the vapour pressure is the true one and positive, and the vapour pressure is strictly increasing. -/
def SatCurve (α : ℝ → ℝ → ℝ) (R b Tmax : ℝ) (p : ℝ → ℝ × ℝ) : Prop :=
  (∀ T, 0 < T → T < Tmax → (∀ q, SatZero α R T b q ↔ q = p T) ∧
    (∃ d, dpsatdTPure α R T (p T).2 (p T).1 = .ok d ∧ 0 < d ∧ HasDerivAt (fun T' => totalPressure α R T' (p T').2) d T) ∧
    ∃ dL dV, satSlopes α R T ⟨(p T).2, (p T).1⟩ = (some dL, some dV) ∧ HasDerivAt (fun T' => (p T').2) dL T ∧ HasDerivAt (fun T' => (p T').1) dV T) ∧
  StrictMonoOn (fun T => totalPressure α R T (p T).2) (Ioo 0 Tmax)

theorem sat_curve {α : ℝ → ℝ → ℝ} {R b Tmax : ℝ} {A g : ℝ → ℝ} (H : Attract α R b A g) (hR : 0 < R) (hb : 0 < b) (hL : ∀ T, 0 < T → Loop α R T (1 / b))
    (hU : ∀ T, 0 < T → T < Tmax → ∃ s, 0 < s ∧ b * s < 1 ∧ deriv (totalPressure α R T) s < 0) (hA : ∀ T, 0 < T → T < Tmax → deriv A T ≤ 0) :
    ∃ p, SatCurve α R b Tmax p := by
  have ex (T : ℝ) : ∃ p, 0 < T → T < Tmax → SatZero α R T b p ∧ ∀ q, SatZero α R T b q → q = p := by
    by_cases h : 0 < T ∧ T < Tmax
    · obtain ⟨p, hp, hu⟩ := loop_saturation (hL T h.1) hR h.1 hb (hU T h.1 h.2)
      exact ⟨p, fun _ _ => ⟨hp, fun q hq => hu q hq⟩⟩
    · exact ⟨(0, 0), fun h1 h2 => absurd ⟨h1, h2⟩ h⟩
  choose p hp using ex
  have main (T : ℝ) (h0 : 0 < T) (h1 : T < Tmax) :
      (∃ d, dpsatdTPure α R T (p T).2 (p T).1 = .ok d ∧ 0 < d ∧ HasDerivAt (fun T' => totalPressure α R T' (p T').2) d T) ∧
      ∃ dL dV, satSlopes α R T ⟨(p T).2, (p T).1⟩ = (some dL, some dV) ∧ HasDerivAt (fun T' => (p T').2) dL T ∧ HasDerivAt (fun T' => (p T').1) dV T := by
    have hev : ∀ᶠ T' in 𝓝 T, 0 < T' ∧ T' < Tmax := (lt_mem_nhds h0).and (gt_mem_nhds h1)
    have P := (hp T h0 h1).1
    have h2 := P.1.trans P.2.1
    have bl1 : b * (p T).1 < 1 := (mul_lt_mul_of_pos_left P.2.1 hb).trans P.2.2.1
    have sv : ContDiffAt ℝ 2 (unc α) (T, (p T).1) := (H.joint hR h0 P.1 bl1).of_le (by norm_num)
    have sl : ContDiffAt ℝ 2 (unc α) (T, (p T).2) := (H.joint hR h0 h2 P.2.2.1).of_le (by norm_num)
    have hd : DifferentiableAt ℝ p T := sat_differentiable hR h0 hb (hev.mono fun T' h => hL T' h.1) (hev.mono fun T' h => (hp T' h.1 h.2).1) sv sl
    have hco : ∀ᶠ T' in 𝓝 T, Coexist α (fun _ => 0) R T' (p T').2 (p T').1 :=
      hev.mono fun T' h => ((loop_satZero (hL T' h.1) (fun _ => 0) hR h.1 hb _).1 (hp T' h.1 h.2).1).2.2.2
    have gL : DifferentiableAt ℝ (fun T' => (p T').2) T := hd.snd
    have gV : DifferentiableAt ℝ (fun T' => (p T').1) T := hd.fst
    obtain ⟨d, hd1, hd2⟩ := dpsatdT_true_slope α (fun _ => 0) R T (fun T' => (p T').2) (fun T' => (p T').1) h0.ne' hR.ne' h2 P.1 P.2.1.ne' sl sv
      (differentiableAt_const _) gL gV hco
    have hcl := dpsatdT_clapeyron α (fun _ => 0) R T (p T).2 (p T).1 h0.ne' hR.ne' h2 P.1 sl sv (differentiableAt_const _) hco.self_of_nhds.2 P.2.1.ne'
    have hde : d = (entropy (totalAlpha α fun _ => 0) R T (p T).1 - entropy (totalAlpha α fun _ => 0) R T (p T).2) / (1 / (p T).1 - 1 / (p T).2) := by
      have := hd1.symm.trans hcl
      injection this
    have hpos : 0 < d := by
      rw [hde]
      exact div_pos (sub_pos.2 (H.entropy_lt hR h0 hb P.1 P.2.1 P.2.2.1 (hA T h0 h1))) (sub_pos.2 (one_div_lt_one_div_of_lt P.1 P.2.1))
    have hV : HasDerivAt (fun T' => totalPressure α R T' (p T').1) d T := hd2.congr_of_eventuallyEq (hco.mono fun T' h => h.1.symm)
    have hmem (ρ : ℝ) : ρ < 1 / b ↔ b * ρ < 1 := by rw [lt_div_iff₀ hb, mul_comm]
    obtain ⟨s1, s2, -⟩ := (hL T h0).sat_slopes (fun _ => 0) hR h0 P.1 P.2.1 ((hmem _).2 P.2.2.1) hco.self_of_nhds
    obtain ⟨dL, eL, hdL⟩ := drhodT_true_slope α R T d (fun T' => (p T').2) h0.ne' sl gL s2.ne' hd2
    obtain ⟨dV, eV, hdV⟩ := drhodT_true_slope α R T d (fun T' => (p T').1) h0.ne' sv gV s1.ne' hV
    refine ⟨⟨d, hd1, hpos, hd2⟩, dL, dV, ?_, hdL, hdV⟩
    unfold satSlopes
    simp only
    rw [hd1]
    simp only
    rw [eL, eV]
  refine ⟨p, fun T h0 h1 => ⟨fun q => ⟨(hp T h0 h1).2 q, fun e => e ▸ (hp T h0 h1).1⟩, main T h0 h1⟩, ?_⟩
  refine strictMonoOn_of_deriv_pos (convex_Ioo 0 Tmax) (fun T hT => ?_) fun T hT => ?_
  · obtain ⟨⟨d, -, -, h⟩, -⟩ := main T hT.1 hT.2
    exact h.continuousAt.continuousWithinAt
  · rw [interior_Ioo] at hT
    obtain ⟨⟨d, -, hd, h⟩, -⟩ := main T hT.1 hT.2
    rw [h.deriv]
    exact hd

/-! ## The models -/

variable {ι : Type} [Fintype ι] [DecidableEq ι]

/-- **van der Waals.** -/
theorem vdw_sat_curve (Tc pc : ι → ℝ) (i : ι) (hTc : 0 < Tc i) (hp : 0 < pc i) :
    ∃ p, SatCurve (fun T r => (VdWMix.ofCritical Tc pc).alphar T r (Pi.single i 1)) RuvdW ((VdWMix.ofCritical Tc pc).bi i) (Tc i) p := by
  have hR := RuvdW_pos
  have hb : (VdWMix.ofCritical Tc pc).bi i = 1 / 8 * RuvdW * Tc i / pc i := rfl
  have hbp : 0 < (VdWMix.ofCritical Tc pc).bi i := by rw [hb]; positivity
  have H : Attract (fun T r => (VdWMix.ofCritical Tc pc).alphar T r (Pi.single i 1)) RuvdW ((VdWMix.ofCritical Tc pc).bi i)
      (fun _ => (VdWMix.ofCritical Tc pc).a (Pi.single i 1)) (fun ρ => ρ) :=
    ⟨fun T ρ _ => by unfold VdWMix.alphar; rw [vdWMix_b_single], fun _ _ _ => contDiffAt_id, fun _ _ _ h _ => h.le, fun _ _ => contDiffAt_const⟩
  refine sat_curve H hR hbp (fun T hT => ?_) (fun T hT h => ?_) fun T _ _ => by simp
  · have := (vdw_loop (VdWMix.ofCritical Tc pc) (Pi.single i 1) T hT (by rw [vdWMix_b_single]; exact hbp)).1
    rwa [vdWMix_b_single] at this
  · by_contra hc
    push Not at hc
    have L := (vdw_loop (VdWMix.ofCritical Tc pc) (Pi.single i 1) T hT (by rw [vdWMix_b_single]; exact hbp)).1
    rw [vdWMix_b_single] at L
    obtain ⟨q, hq, -⟩ := (vdw_pure_saturation Tc pc i T hT hTc hp).1 h
    exact loop_none L hR hT hbp hc q hq

/-- The attraction of a pure cubic fluid with Soave's alpha function. -/
theorem soave_slope {Tc T m : ℝ} (hTc : 0 < Tc) (hT : 0 < T) : ContDiffAt ℝ 4 (fun T => (AlphaFn.basic Tc m).eval T) T ∧
    (0 ≤ m → T ≤ Tc → deriv (fun T => (AlphaFn.basic Tc m).eval T) T ≤ 0) := by
  have hpos : 0 < T / Tc := by positivity
  simp only [AlphaFn.eval]
  constructor
  · have d : ContDiffAt ℝ 4 (fun T : ℝ => T / Tc) T := by fun_prop
    exact (contDiffAt_const.add (contDiffAt_const.mul (contDiffAt_const.sub (d.sqrt hpos.ne')))).pow 2
  · intro hm h
    have d : HasDerivAt (fun T : ℝ => T / Tc) (1 / Tc) T := (hasDerivAt_id T).div_const Tc
    have d2 : HasDerivAt (fun T : ℝ => 1 + m * (1 - Real.sqrt (T / Tc))) (m * -(1 / Tc / (2 * Real.sqrt (T / Tc)))) T := ((d.sqrt hpos.ne').const_sub 1 |>.const_mul m).const_add 1
    have d3 : HasDerivAt (fun T : ℝ => (1 + m * (1 - Real.sqrt (T / Tc))) ^ 2) _ T := d2.pow 2
    rw [d3.deriv]
    have hs : Real.sqrt (T / Tc) ≤ 1 := Real.sqrt_le_iff.2 ⟨zero_le_one, by rw [one_pow, div_le_one hTc]; exact h⟩
    have h1 : 0 ≤ 1 + m * (1 - Real.sqrt (T / Tc)) := by nlinarith
    have h2 : 0 ≤ m * (1 / Tc / (2 * Real.sqrt (T / Tc))) := by positivity
    simp only [Nat.cast_ofNat, Nat.reduceSub, pow_one]
    nlinarith [mul_nonneg h1 h2]

theorem cubic_attract (c : Cubic ι) (x : ι → ℝ) (A : ℝ → ℝ) (hb : 0 < c.get_b x) (hD : c.Delta1 ≠ c.Delta2) (hD1 : -1 < c.Delta1) (hD2 : -1 < c.Delta2)
    (hA : ∀ T, 0 < T → c.get_a T x = A T) (sA : ∀ T, 0 < T → ContDiffAt ℝ 4 A T) :
    Attract (fun T r => c.alphar T r x) c.R (c.get_b x) A
      (fun ρ => Real.log ((c.Delta1 * c.get_b x * ρ + 1) / (c.Delta2 * c.get_b x * ρ + 1)) / (c.get_b x * (c.Delta1 - c.Delta2))) := by
  have key (D : ℝ) (hD : -1 < D) {ρ : ℝ} (h0 : 0 < ρ) (h1 : c.get_b x * ρ < 1) : 0 < D * c.get_b x * ρ + 1 := by
    have h : 0 < c.get_b x * ρ := mul_pos hb h0
    rw [mul_assoc]
    nlinarith [mul_pos (show 0 < D + 1 by linarith) h]
  have der (ρ : ℝ) (h0 : 0 < ρ) (h1 : c.get_b x * ρ < 1) :
      HasDerivAt (fun ρ => Real.log ((c.Delta1 * c.get_b x * ρ + 1) / (c.Delta2 * c.get_b x * ρ + 1)) / (c.get_b x * (c.Delta1 - c.Delta2)))
        (1 / ((c.Delta1 * c.get_b x * ρ + 1) * (c.Delta2 * c.get_b x * ρ + 1))) ρ := by
    have p1 := (key c.Delta1 hD1 h0 h1).ne'
    have p2 := (key c.Delta2 hD2 h0 h1).ne'
    have e2 : ∀ D : ℝ, HasDerivAt (fun r : ℝ => D * c.get_b x * r + 1) (D * c.get_b x) ρ := fun D => by
      simpa using ((hasDerivAt_id ρ).const_mul (D * c.get_b x)).add_const 1
    have e4 : HasDerivAt (fun ρ => Real.log ((c.Delta1 * c.get_b x * ρ + 1) / (c.Delta2 * c.get_b x * ρ + 1)) / (c.get_b x * (c.Delta1 - c.Delta2))) _ ρ :=
      (((e2 c.Delta1).div (e2 c.Delta2) p2).log (div_ne_zero p1 p2)).div_const (c.get_b x * (c.Delta1 - c.Delta2))
    refine e4.congr_deriv ?_
    have hD' : c.Delta1 - c.Delta2 ≠ 0 := sub_ne_zero.mpr hD
    have hb' := hb.ne'
    simp only [Pi.div_apply]
    field_simp
    ring
  refine ⟨fun T ρ hT => ?_, fun ρ h0 h1 => ?_, fun u v hu huv hv => ?_, sA⟩
  · show cubicAlphar c.R (c.get_a T x) (c.get_b x) c.Delta1 c.Delta2 T ρ = _
    rw [hA T hT]
    rfl
  · have p1 := key c.Delta1 hD1 h0 h1
    have p2 := key c.Delta2 hD2 h0 h1
    have d1 : ContDiffAt ℝ 4 (fun ρ : ℝ => c.Delta1 * c.get_b x * ρ + 1) ρ := by fun_prop
    have d2 : ContDiffAt ℝ 4 (fun ρ : ℝ => c.Delta2 * c.get_b x * ρ + 1) ρ := by fun_prop
    exact ContDiffAt.div_const ((d1.div d2 p2.ne').log (div_pos p1 p2).ne') _
  · have hin (ρ : ℝ) (hρ : ρ ∈ Icc u v) : 0 < ρ ∧ c.get_b x * ρ < 1 := ⟨hu.trans_le hρ.1, (mul_le_mul_of_nonneg_left hρ.2 hb.le).trans_lt hv⟩
    refine monotoneOn_of_deriv_nonneg (convex_Icc u v) (fun ρ hρ => (der ρ (hin ρ hρ).1 (hin ρ hρ).2).continuousAt.continuousWithinAt)
      (fun ρ hρ => ?_) (fun ρ hρ => ?_) (left_mem_Icc.2 huv.le) (right_mem_Icc.2 huv.le) huv.le
    · have := hin ρ (interior_subset hρ)
      exact (der ρ this.1 this.2).differentiableAt.differentiableWithinAt
    · have := hin ρ (interior_subset hρ)
      rw [(der ρ this.1 this.2).deriv]
      exact (div_pos one_pos (mul_pos (key _ hD1 this.1 this.2) (key _ hD2 this.1 this.2))).le

/-- **Soave-Redlich-Kwong**, for acentric factors with a slope of the alpha function that is not negative. -/
theorem srk_sat_curve (Tc pc ω : ι → ℝ) (k : ι → ι → ℝ) (R : ℝ) (i : ι) (hR : 0 < R) (hTc : 0 < Tc i) (hp : 0 < pc i) (hk : k i i = 0) (h0 : 0 ≤ mSRK (ω i)) :
    ∃ p, SatCurve (fun T r => (canonicalSRK Tc pc ω k R).alphar T r (Pi.single i 1)) R (OmegaB_SRK * R * Tc i / pc i) (Tc i) p := by
  have hu0 := srkU_facts.1
  have hA : OmegaA_SRK = 1 / (9 * srkU) := rfl
  have hAp : 0 ≤ OmegaA_SRK * (R * Tc i) ^ 2 / pc i := by rw [hA]; positivity
  have hb : (canonicalSRK Tc pc ω k R).get_b (Pi.single i 1) = OmegaB_SRK * R * Tc i / pc i := cubic_b_single _ i
  have ha (T : ℝ) (hT : 0 < T) : (canonicalSRK Tc pc ω k R).get_a T (Pi.single i 1) = OmegaA_SRK * (R * Tc i) ^ 2 / pc i * (AlphaFn.basic (Tc i) (mSRK (ω i))).eval T :=
    cubic_pure_a Tc pc 1 0 OmegaA_SRK OmegaB_SRK R (fun i => .basic (Tc i) (mSRK (ω i))) k i T (by rw [hA]; positivity) hp hT.le hTc.le hk
  have hbp : 0 < OmegaB_SRK * R * Tc i / pc i := (srk_pure_loop Tc pc ω k R 1 i hR one_pos hTc hp hk).1
  have H := cubic_attract (canonicalSRK Tc pc ω k R) (Pi.single i 1) (fun T => OmegaA_SRK * (R * Tc i) ^ 2 / pc i * (AlphaFn.basic (Tc i) (mSRK (ω i))).eval T)
    (by rw [hb]; exact hbp) (by norm_num [canonicalSRK, Cubic.build]) (by norm_num [canonicalSRK, Cubic.build]) (by norm_num [canonicalSRK, Cubic.build]) ha
    (fun T hT => contDiffAt_const.mul (soave_slope hTc hT).1)
  rw [hb] at H
  refine sat_curve H hR hbp (fun T hT => (srk_pure_loop Tc pc ω k R T i hR hT hTc hp hk).2.1)
    (fun T hT h => (srk_pure_loop Tc pc ω k R T i hR hT hTc hp hk).2.2.2 ((soave_above hTc hT (by linarith)).1 h)) fun T hT h => ?_
  rw [deriv_const_mul_field]
  exact mul_nonpos_of_nonneg_of_nonpos hAp ((soave_slope hTc hT).2 h0 h.le)

/-- **Peng-Robinson**, up to one part in 10^18 below the critical temperature. -/
theorem pr_sat_curve (Tc pc ω : ι → ℝ) (k : ι → ι → ℝ) (R : ℝ) (i : ι) (hR : 0 < R) (hTc : 0 < Tc i) (hp : 0 < pc i) (hk : k i i = 0) (h0 : 0 ≤ mPR (ω i)) :
    ∃ p, SatCurve (fun T r => (prModel Tc pc ω k R).alphar T r (Pi.single i 1)) R (OmegaB_PR * R * Tc i / pc i) (Tc i / (1 + 1e-18)) p := by
  have hAp : 0 ≤ OmegaA_PR * (R * Tc i) ^ 2 / pc i := by unfold OmegaA_PR; positivity
  have hb : (prModel Tc pc ω k R).get_b (Pi.single i 1) = OmegaB_PR * R * Tc i / pc i := cubic_b_single _ i
  have ha (T : ℝ) (hT : 0 < T) : (prModel Tc pc ω k R).get_a T (Pi.single i 1) = OmegaA_PR * (R * Tc i) ^ 2 / pc i * (AlphaFn.basic (Tc i) (mPR (ω i))).eval T :=
    cubic_pure_a Tc pc _ _ OmegaA_PR OmegaB_PR R (fun i => .basic (Tc i) (mPR (ω i))) k i T (by unfold OmegaA_PR; norm_num) hp hT.le hTc.le hk
  have hbp : 0 < OmegaB_PR * R * Tc i / pc i := (pr_pure_loop Tc pc ω k R 1 i hR one_pos hTc hp).1
  obtain ⟨hD, hD1, hD2, -, -⟩ := prDeltas (c := prModel Tc pc ω k R) rfl rfl
  have H := cubic_attract (prModel Tc pc ω k R) (Pi.single i 1) (fun T => OmegaA_PR * (R * Tc i) ^ 2 / pc i * (AlphaFn.basic (Tc i) (mPR (ω i))).eval T)
    (by rw [hb]; exact hbp) hD hD1 hD2 ha (fun T hT => contDiffAt_const.mul (soave_slope hTc hT).1)
  rw [hb] at H
  refine sat_curve H hR hbp (fun T hT => (pr_pure_loop Tc pc ω k R T i hR hT hTc hp).2) (fun T hT h => ?_) fun T hT h => ?_
  · by_contra hc
    push Not at hc
    obtain ⟨q, hq, -⟩ := pr_pure_saturation Tc pc ω k R T i hR hT hTc hp hk h0 (by rw [lt_div_iff₀ (by norm_num)] at h; linarith)
    exact loop_none (pr_pure_loop Tc pc ω k R T i hR hT hTc hp).2 hR hT hbp hc q hq
  · have h' : T < Tc i := h.trans (div_lt_self hTc (by norm_num))
    rw [deriv_const_mul_field]
    exact mul_nonpos_of_nonneg_of_nonpos hAp ((soave_slope hTc hT).2 h0 h'.le)

/-- The vapour pressures of ethane at 200 K and 250 K. -/
example : ∃ p, SatCurve (fun T r => (canonicalSRK (ι := Fin 2) ![190.5, 305.3] ![4.6e6, 4.87e6] ![0.011, 0.099] (fun _ _ => 0) 8.314).alphar T r (Pi.single 1 1)) 8.314
      (OmegaB_SRK * 8.314 * 305.3 / 4.87e6) 305.3 p ∧
    totalPressure (fun T r => (canonicalSRK (ι := Fin 2) ![190.5, 305.3] ![4.6e6, 4.87e6] ![0.011, 0.099] (fun _ _ => 0) 8.314).alphar T r (Pi.single 1 1)) 8.314 200 (p 200).2
      < totalPressure (fun T r => (canonicalSRK (ι := Fin 2) ![190.5, 305.3] ![4.6e6, 4.87e6] ![0.011, 0.099] (fun _ _ => 0) 8.314).alphar T r (Pi.single 1 1)) 8.314 250 (p 250).2 := by
  obtain ⟨p, hp⟩ := srk_sat_curve (ι := Fin 2) ![190.5, 305.3] ![4.6e6, 4.87e6] ![0.011, 0.099] (fun _ _ => 0) 8.314 1 (by norm_num) (by norm_num) (by norm_num) rfl (by norm_num [mSRK])
  exact ⟨p, hp, hp.2 ⟨by norm_num, by norm_num⟩ ⟨by norm_num, by norm_num⟩ (by norm_num)⟩

example : ∃ p, SatCurve (fun T r => (prModel (ι := Fin 1) ![617.7] ![2.103e6] ![0.488] (fun _ _ => 0) 8.314).alphar T r (Pi.single 0 1)) 8.314
    (OmegaB_PR * 8.314 * 617.7 / 2.103e6) (617.7 / (1 + 1e-18)) p :=
  pr_sat_curve (ι := Fin 1) ![617.7] ![2.103e6] ![0.488] (fun _ _ => 0) 8.314 0 (by norm_num) (by norm_num) (by norm_num) rfl (by norm_num [mPR])

example : ∃ p, SatCurve (fun T r => (VdWMix.ofCritical (ι := Fin 2) ![150, 300] ![4e6, 5e6]).alphar T r (Pi.single 1 1)) RuvdW
    ((VdWMix.ofCritical (ι := Fin 2) ![150, 300] ![4e6, 5e6]).bi 1) 300 p :=
  vdw_sat_curve (ι := Fin 2) ![150, 300] ![4e6, 5e6] 1 (by norm_num) (by norm_num)

end Teqp.Props

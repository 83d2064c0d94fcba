import Verif.Model.ParamOpt
import Verif.Spec.Sound
import Verif.Lemmas.Thermo
import Verif.Props.Lambda
import Verif.Lemmas.PureVLE
import Mathlib.Analysis.SpecialFunctions.Log.Deriv
import Mathlib.Analysis.SpecialFunctions.Pow.Deriv
import Mathlib.Tactic

/-! # C126: the speed of sound of the fitting contributions -/

set_option autoImplicit false
open Filter Topology

namespace Teqp.Props
open Teqp.Calc Teqp.Model Teqp.Spec Teqp.Lemmas

/-- Chain rule along a curve of states. -/
theorem hasDerivAt_states {F : ℝ → ℝ → ℝ} {T ρ dT dr : ℝ} {θ r : ℝ → ℝ} {θ' r' : ℝ} (h : DifferentiableAt ℝ (unc F) (T, ρ))
    (h0 : θ 0 = T) (h1 : r 0 = ρ) (hθ : HasDerivAt θ θ' 0) (hr : HasDerivAt r r' 0)
    (hT : HasDerivAt (fun t => F t ρ) dT T) (hρ : HasDerivAt (fun x => F T x) dr ρ) :
    HasDerivAt (fun s => F (θ s) (r s)) (dT * θ' + dr * r') 0 := by
  have hc : HasDerivAt (fun s => ((θ s, r s) : ℝ × ℝ)) (θ', r') 0 := hθ.prodMk hr
  have hF : HasFDerivAt (unc F) (fderiv ℝ (unc F) (T, ρ)) (θ 0, r 0) := by rw [h0, h1]; exact h.hasFDerivAt
  have := HasFDerivAt.comp_hasDerivAt (l := unc F) 0 hF hc
  refine this.congr_deriv ?_
  rw [hT.unique (hasDerivAt_left h), hρ.unique (hasDerivAt_right h)]
  have e : ((θ', r') : ℝ × ℝ) = θ' • ((1, 0) : ℝ × ℝ) + r' • ((0, 1) : ℝ × ℝ) := by simp
  rw [e, map_add, map_smul, map_smul, smul_eq_mul, smul_eq_mul, mul_comm θ', mul_comm r']

theorem contDiffAt_helmholtz {α : ℝ → ℝ → ℝ} {R T ρ : ℝ} (h : ContDiffAt ℝ 2 (unc α) (T, ρ)) :
    ContDiffAt ℝ 2 (unc (helmholtz α R)) (T, ρ) := by
  have : unc (helmholtz α R) = fun p => unc α p * R * p.1 := by funext p; rfl
  rw [this]
  exact (h.mul contDiffAt_const).mul contDiffAt_fst

theorem differentiableAt_entropy {α : ℝ → ℝ → ℝ} {R T ρ : ℝ} (h : ContDiffAt ℝ 2 (unc α) (T, ρ)) :
    DifferentiableAt ℝ (unc (entropy α R)) (T, ρ) := by
  have hH := contDiffAt_helmholtz (R := R) h
  have hd : DifferentiableAt ℝ (fun p => -(fderiv ℝ (unc (helmholtz α R)) p (1, 0))) (T, ρ) :=
    ((differentiableAt_fderiv hH).clm_apply (differentiableAt_const _)).neg
  refine hd.congr_of_eventuallyEq ?_
  filter_upwards [eventually_differentiableAt hH] with p hp
  change -deriv (fun T' => helmholtz α R T' p.2) p.1 = _
  rw [(hasDerivAt_left (F := helmholtz α R) (a := p.1) (b := p.2) hp).deriv]

theorem differentiableAt_pressure {α : ℝ → ℝ → ℝ} {R T ρ : ℝ} (h : ContDiffAt ℝ 2 (unc α) (T, ρ)) :
    DifferentiableAt ℝ (unc (pressure α R)) (T, ρ) := by
  have hH := contDiffAt_helmholtz (R := R) h
  have hd : DifferentiableAt ℝ (fun p : ℝ × ℝ => p.2 ^ 2 * (fderiv ℝ (unc (helmholtz α R)) p (0, 1))) (T, ρ) :=
    (differentiableAt_snd.pow 2).mul ((differentiableAt_fderiv hH).clm_apply (differentiableAt_const _))
  refine hd.congr_of_eventuallyEq ?_
  filter_upwards [eventually_differentiableAt hH] with p hp
  change p.2 ^ 2 * deriv (fun r => helmholtz α R p.1 r) p.2 = _
  rw [(hasDerivAt_right (F := helmholtz α R) (a := p.1) (b := p.2) hp).deriv]

theorem contDiffAt_totalAlpha {αr : ℝ → ℝ → ℝ} {c : ℝ → ℝ} {T ρ : ℝ} (hρ : ρ ≠ 0) (h : ContDiffAt ℝ 2 (unc αr) (T, ρ))
    (hc : ContDiffAt ℝ 2 c T) : ContDiffAt ℝ 2 (unc (totalAlpha αr c)) (T, ρ) := by
  have : unc (totalAlpha αr c) = fun p : ℝ × ℝ => Real.log p.2 + c p.1 + unc αr p := by funext p; rfl
  rw [this]
  have h1 : ContDiffAt ℝ 2 (fun p : ℝ × ℝ => Real.log p.2) (T, ρ) := contDiffAt_snd.log hρ
  have h2 : ContDiffAt ℝ 2 (fun p : ℝ × ℝ => c p.1) (T, ρ) := ContDiffAt.comp (g := c) (T, ρ) hc contDiffAt_fst
  exact (h1.add h2).add h

/-- C126. The speed of sound used by the fitting contributions is the thermodynamic one: with `Ao20` the reduced second
temperature derivative of the ideal-gas part, `R T · Mw2RT` is the slope of the pressure in density along every curve of
constant entropy. -/
theorem sound_speed_isentropic {αr : ℝ → ℝ → ℝ} {c : ℝ → ℝ} {R T ρ : ℝ} (vle : ℝ → ℝ → ℝ → Outcome (ℝ × ℝ))
    (hR : R ≠ 0) (hT : T ≠ 0) (hρ : ρ ≠ 0) (h : ContDiffAt ℝ 2 (unc αr) (T, ρ)) (hc : ContDiffAt ℝ 2 c T)
    (hcv : Lambda (fun T _ => c T) 2 0 T ρ + Lambda αr 2 0 T ρ ≠ 0) :
    IsentropicSlope αr c R T ρ
      (mw2RT (FitModel.ofAlpha αr vle) (Lambda (fun T _ => c T) 2 0 T ρ) T ρ * R * T) := by
  intro θ r θ' r' h0 h1 hθ hr hs
  have hα := contDiffAt_totalAlpha hρ h hc
  have P := partials hT hα
  have Pr := partials hT h
  have hc' : ContDiffAt ℝ 2 (unc fun T (_ : ℝ) => c T) (T, ρ) := ContDiffAt.comp (g := c) (T, ρ) hc contDiffAt_fst
  have Pc := partials hT hc'
  -- the total partial derivatives
  have ev : ∀ t x, recipForm (totalAlpha αr c) t x = Real.log x + recipForm (fun T _ => c T) t x + recipForm αr t x := by
    intro t x; rfl
  have eft : P.ft = Pc.ft + Pr.ft := by
    refine P.h_t.unique ?_
    simp only [ev]
    exact (Pc.h_t.const_add _).add Pr.h_t
  have efr : P.fr = 1 / ρ + Pr.fr := by
    refine P.h_r.unique ?_
    simp only [ev]
    have hk : HasDerivAt (fun x => recipForm (fun T (_ : ℝ) => c T) (1 / T) x) 0 ρ := by
      simpa [recipForm] using hasDerivAt_const ρ (c (1 / (1 / T)))
    refine (((Real.hasDerivAt_log hρ).add hk).add Pr.h_r).congr_deriv ?_
    simp
  have eftr : P.ftr = Pr.ftr := by
    refine P.h_rt.unique ?_
    have hev : (fun x => deriv (fun t => recipForm (totalAlpha αr c) t x) (1 / T)) =ᶠ[𝓝 ρ]
        fun x => Pc.ft + deriv (fun t => recipForm αr t x) (1 / T) := by
      filter_upwards [Pr.ev_rt] with x hx
      have := ((Pc.h_t.const_add (Real.log x)).add hx.hasDerivAt).deriv
      simp only [ev]
      exact this
    exact (Pr.h_rt.const_add Pc.ft).congr_of_eventuallyEq hev
  have eftt : P.ftt = Pc.ftt + Pr.ftt := by
    refine P.h_tt.unique ?_
    have hev : (fun t => deriv (fun t' => recipForm (totalAlpha αr c) t' ρ) t) =ᶠ[𝓝 (1 / T)]
        fun t => deriv (fun t' => recipForm (fun T (_ : ℝ) => c T) t' ρ) t + deriv (fun t' => recipForm αr t' ρ) t := by
      filter_upwards [Pr.ev_t, Pc.ev_t] with t hr' hc''
      have := ((hc''.hasDerivAt.const_add (Real.log ρ)).add hr'.hasDerivAt).deriv
      simp only [ev]
      exact this
    exact (Pc.h_tt.add Pr.h_tt).congr_of_eventuallyEq hev
  -- the pressure
  have ep : totalPressure αr R = fun T r => r * R * T + pressure αr R T r := by funext T r; rfl
  have hpd : DifferentiableAt ℝ (unc (totalPressure αr R)) (T, ρ) := by
    have h2 : DifferentiableAt ℝ (fun p : ℝ × ℝ => p.2 * R * p.1) (T, ρ) :=
      (differentiableAt_snd.mul_const R).mul differentiableAt_fst
    exact h2.add (differentiableAt_pressure h)
  have hpT : HasDerivAt (fun t => totalPressure αr R t ρ)
      (ρ * R + (ρ ^ 2 * (Pr.fr * R) + ρ ^ 2 * (-(1 / T) ^ 2 * Pr.ftr * R * T))) T := by
    rw [ep]
    have h3 : HasDerivAt (fun t : ℝ => ρ * R * t) (ρ * R) T := by simpa using (hasDerivAt_id T).const_mul (ρ * R)
    exact h3.add (Teqp.Lemmas.pressure_dT R hT Pr)
  have hpr : HasDerivAt (fun x => totalPressure αr R T x)
      (R * T + (2 * ρ * (Pr.fr * R * T) + ρ ^ 2 * (Pr.frr * R * T))) ρ := by
    rw [ep]
    have h3 : HasDerivAt (fun x : ℝ => x * R * T) (R * T) ρ := by simpa using ((hasDerivAt_id ρ).mul_const R).mul_const T
    exact h3.add (Teqp.Lemmas.pressure_drho R Pr)
  have hp := hasDerivAt_states hpd h0 h1 hθ hr hpT hpr
  -- constant entropy
  have hen := hasDerivAt_states (differentiableAt_entropy (R := R) hα) h0 h1 hθ hr (entropy_dT R hT P) (entropy_drho R hT P)
  have hz : -(R * (1 / T) ^ 3 * P.ftt) * θ' + R * ((1 / T) * P.ftr - P.fr) * r' = 0 := by
    have h3 : HasDerivAt (fun s => entropy (totalAlpha αr c) R (θ s) (r s)) 0 0 :=
      (hasDerivAt_const (0 : ℝ) (entropy (totalAlpha αr c) R T ρ)).congr_of_eventuallyEq hs
    exact hen.unique h3
  refine hp.congr_deriv ?_
  have l20 := Lambda20 Pr
  have l20c := Lambda20 Pc
  unfold mw2RT FitModel.ofAlpha
  simp only [Agenxy_is_Lambda]
  rw [l20, l20c] at hcv ⊢
  rw [Lambda01 Pr, Lambda02 Pr, Lambda11 Pr]
  rw [eftt, eftr, efr] at hz
  have hne : Pc.ftt + Pr.ftt ≠ 0 := by
    intro hh
    apply hcv
    rw [← mul_add, hh, mul_zero]
  have hθ' : θ' = T ^ 3 * ((1 / T) * Pr.ftr - (1 / ρ + Pr.fr)) * r' / (Pc.ftt + Pr.ftt) := by
    have : R * ((1 / T) ^ 3 * (Pc.ftt + Pr.ftt) * θ' - ((1 / T) * Pr.ftr - (1 / ρ + Pr.fr)) * r') = 0 := by
      linear_combination -hz
    rcases mul_eq_zero.1 this with h' | h'
    · exact absurd h' hR
    · rw [eq_div_iff hne]
      have e3 : T ^ 3 * (1 / T) ^ 3 = 1 := by field_simp
      linear_combination T ^ 3 * h' - θ' * (Pc.ftt + Pr.ftt) * e3
  rw [hθ']
  have : (1 / T) ^ 2 * Pc.ftt + (1 / T) ^ 2 * Pr.ftt = (1 / T) ^ 2 * (Pc.ftt + Pr.ftt) := by ring
  rw [this]
  field_simp
  ring

theorem ideal_lambda20 (T ρ : ℝ) (hT : T ≠ 0) : Lambda (fun T (_ : ℝ) => -(3 / 2) * Real.log T) 2 0 T ρ = -(3 / 2) := by
  unfold Lambda
  simp only [iteratedDeriv_zero, pow_zero, mul_one]
  have e : (fun t : ℝ => -(3 / 2) * Real.log (1 / t)) = fun t => 3 / 2 * Real.log t := by
    funext t; rw [one_div, Real.log_inv]; ring
  rw [e, iteratedDeriv_succ, iteratedDeriv_one]
  have e1 : deriv (fun t : ℝ => 3 / 2 * Real.log t) = fun t => 3 / 2 * t⁻¹ := by
    funext t; simp
  rw [e1, deriv_const_mul_field, deriv_inv]
  field_simp

/-- The hypotheses hold for the monatomic ideal gas, along `T ∝ (1+s)²`, `ρ ∝ (1+s)³`, and the slope there is `5/3 R T`. -/
example (vle : ℝ → ℝ → ℝ → Outcome (ℝ × ℝ)) :
    HasDerivAt (fun s : ℝ => totalPressure (fun _ _ => 0) 8 (300 * (1 + s) ^ 2) (2 * (1 + s) ^ 3)) (5 / 3 * 8 * 300 * 6) 0 := by
  have hl := ideal_lambda20 300 2 (by norm_num)
  have hz : ∀ i j, Lambda (fun _ _ => 0) i j 300 2 = 0 := by
    intro i j; unfold Lambda; simp
  have := sound_speed_isentropic (αr := fun _ _ => 0) (c := fun T => -(3 / 2) * Real.log T) (R := 8) (T := 300) (ρ := 2) vle
    (by norm_num) (by norm_num) (by norm_num) (by exact contDiffAt_const)
    (contDiffAt_const.mul (contDiffAt_id.log (by norm_num))) (by rw [hl, hz]; norm_num)
    (fun s => 300 * (1 + s) ^ 2) (fun s => 2 * (1 + s) ^ 3) 600 6 (by norm_num) (by norm_num)
    (by
      have := (((hasDerivAt_id (0 : ℝ)).const_add 1).pow 2).const_mul 300
      refine this.congr_deriv ?_
      norm_num)
    (by
      have := (((hasDerivAt_id (0 : ℝ)).const_add 1).pow 3).const_mul 2
      refine this.congr_deriv ?_
      norm_num)
    (by
      have key : ∀ T ρ : ℝ, 0 < T → entropy (totalAlpha (fun _ _ => 0) fun T => -(3 / 2) * Real.log T) 8 T ρ
          = -(8 * (Real.log ρ - 3 / 2 * Real.log T - 3 / 2)) := by
        intro T ρ hT
        unfold entropy helmholtz totalAlpha
        have := ((((((Real.hasDerivAt_log hT.ne').const_mul (-(3 / 2 : ℝ))).const_add (Real.log ρ)).add_const
          (0 : ℝ)).mul_const 8).mul (hasDerivAt_id T)).deriv
        rw [show (fun T' => (Real.log ρ + -(3 / 2) * Real.log T' + 0) * 8 * T')
          = (fun T' => (Real.log ρ + -(3 / 2) * Real.log T' + 0) * 8) * id from rfl, this]
        simp only [id]
        field_simp
        ring
      filter_upwards [Ioo_mem_nhds (show (-1 : ℝ) < 0 by norm_num) (show (0 : ℝ) < 1 by norm_num)] with s hs
      have h1 : 0 < 1 + s := by linarith [hs.1]
      rw [key _ _ (by positivity), key _ _ (by norm_num), Real.log_mul (by norm_num) (by positivity),
        Real.log_mul (by norm_num) (by positivity), Real.log_pow, Real.log_pow]
      push_cast
      ring)
  refine this.congr_deriv ?_
  unfold mw2RT FitModel.ofAlpha
  simp only [Agenxy_is_Lambda]
  rw [hl, hz, hz, hz, hz]
  norm_num

end Teqp.Props

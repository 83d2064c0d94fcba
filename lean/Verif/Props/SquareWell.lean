import Verif.Model.SquareWell
import Mathlib.Analysis.Calculus.Deriv.Inv
import Mathlib.Analysis.Calculus.Deriv.Pow
import Mathlib.Analysis.Calculus.Deriv.Add
import Mathlib.Tactic

/-! # The square-well fluid: second virial coefficient (C86) and continuity in the range (C87) -/

set_option autoImplicit false

namespace Teqp.Spec

/-- The second virial coefficient of the square-well potential, `-2π ∫ (exp(-V/T) - 1) r² dr` in units of the diameter: the core
contributes `2π/3`, the well `-2π/3 (λ³-1)(exp(1/T) - 1)`. -/
noncomputable def swB2exact (l T : ℝ) : ℝ := 2 * Real.pi / 3 * (1 - (l ^ 3 - 1) * (Real.exp (1 / T) - 1))

/-- The first four orders of the same in the inverse temperature. -/
noncomputable def swB2four (l T : ℝ) : ℝ :=
  2 * Real.pi / 3 * (1 - (l ^ 3 - 1) * ((1 / T) + (1 / T) ^ 2 / 2 + (1 / T) ^ 3 / 6 + (1 / T) ^ 4 / 24))

/-- Carnahan and Starling in the packing fraction. -/
noncomputable def carnahanStarling (eta : ℝ) : ℝ := (4 * eta - 3 * eta ^ 2) / (1 - eta) ^ 2

end Teqp.Spec

namespace Teqp.Props
open Finset Teqp.Model Teqp.Spec Filter Topology

/-- **The hard-sphere part is the one of Carnahan and Starling** with packing fraction `πρ/6`. -/
theorem sw_hard_sphere (rho : ℝ) (h : Real.pi * rho ≠ 6) : swHS rho = carnahanStarling (Real.pi * rho / 6) := by
  unfold swHS carnahanStarling
  have h1 : Real.pi * rho - 6 ≠ 0 := sub_ne_zero.mpr h
  have h2 : 1 - Real.pi * rho / 6 ≠ 0 := fun hc => h (by linarith)
  field_simp
  ring

example : Real.pi * 0.5 ≠ 6 := by
  have := Real.pi_le_four
  intro h
  linarith

theorem hasDerivAt_mul_exp (c : ℝ) (f : ℝ → ℝ) (hf : DifferentiableAt ℝ f 0) (h0 : f 0 = 0) : HasDerivAt (fun r => c * r * Real.exp (f r)) c 0 := by
  have h := ((hasDerivAt_id (0 : ℝ)).const_mul c).fun_mul hf.hasDerivAt.exp
  refine h.congr_deriv ?_
  simp [h0]

/-- **The slope at zero density** is the second virial coefficient of the potential to fourth order in the inverse temperature, for
every range.  (At `λ = 1` the code divides zero by zero in `xi2`, line 119, hence the hypothesis.) -/
theorem sw_virial (l T : ℝ) (_hl : 1 < l) (_hT : 0 < T) : swAlphar l T 0 = 0 ∧ HasDerivAt (swAlphar l T) (swB2four l T) 0 := by
  constructor
  · unfold swAlphar swHS swa1 swa2 swa3 swa4 swChi
    simp
  have hHS : HasDerivAt swHS (2 * Real.pi / 3) 0 := by
    have hn : HasDerivAt (fun rho : ℝ => -3 * Real.pi * rho * (Real.pi * rho - 8)) (24 * Real.pi) 0 := by
      refine (((hasDerivAt_id (0 : ℝ)).const_mul (-3 * Real.pi)).fun_mul (((hasDerivAt_id (0 : ℝ)).const_mul Real.pi).sub_const 8)).congr_deriv ?_
      simp
      ring
    have hd : HasDerivAt (fun rho : ℝ => (Real.pi * rho - 6) ^ 2) (-12 * Real.pi) 0 := by
      refine ((((hasDerivAt_id (0 : ℝ)).const_mul Real.pi).sub_const 6).fun_pow 2).congr_deriv ?_
      simp
      ring
    refine (hn.fun_div hd (by norm_num)).congr_deriv ?_
    simp
    ring
  have h1 : HasDerivAt (fun r => swa1 r l) (swA2 1 l) 0 := by
    unfold swa1
    have hs : HasDerivAt (fun r : ℝ => ∑ i ∈ Icc 1 4, swGamma i l * r ^ (i + 2)) 0 0 := by
      have := HasDerivAt.fun_sum (u := Icc 1 4) fun i (_ : i ∈ Icc 1 4) => (hasDerivAt_pow (i + 2) (0 : ℝ)).const_mul (swGamma i l)
      refine this.congr_deriv ?_
      refine Finset.sum_eq_zero fun i _ => ?_
      simp
    have := ((((hasDerivAt_id (0 : ℝ)).const_mul (swA2 1 l)).fun_add ((hasDerivAt_pow 2 (0 : ℝ)).const_mul (swA31 l))).fun_add hs)
    refine this.congr_deriv ?_
    simp
  have h2 : HasDerivAt (fun r => swa2 r l) (swA2 2 l) 0 := by
    unfold swa2 swChi
    have hf : DifferentiableAt ℝ (fun r : ℝ => swXi2 l * r + swPhi 1 l * r ^ 3 + swPhi 2 l * r ^ 4) 0 := by fun_prop
    have hg : HasDerivAt (fun r : ℝ => 1 - r ^ 2 / 1.5129) 0 0 := by
      refine (((hasDerivAt_pow 2 (0 : ℝ)).div_const 1.5129).const_sub 1).congr_deriv ?_
      simp
    have h := (((hasDerivAt_id (0 : ℝ)).const_mul (swA2 2 l)).fun_mul hg).fun_mul hf.hasDerivAt.exp
    refine h.congr_deriv ?_
    simp
  have hK : ∀ i, DifferentiableAt ℝ (fun r => swK i r l) 0 := by
    intro i
    unfold swK
    refine DifferentiableAt.fun_div (by fun_prop) (by fun_prop) (by simp)
  have hK0 : ∀ i, swK i 0 l = 0 := by
    intro i
    unfold swK
    simp
  have h3 : HasDerivAt (fun r => swa3 r l) (swA2 3 l) 0 :=
    hasDerivAt_mul_exp _ _ (((differentiableAt_id).const_mul (swXi3 l)).add (hK 3)) (by simp [hK0])
  have h4 : HasDerivAt (fun r => swa4 r l) (swA2 4 l) 0 :=
    hasDerivAt_mul_exp _ _ (((differentiableAt_id).const_mul (swXi4 l)).add (hK 4)) (by simp [hK0])
  have h := (((hHS.fun_add (h1.div_const T)).fun_add (h2.div_const (T ^ 2))).fun_add (h3.div_const (T ^ 3))).fun_add (h4.div_const (T ^ 4))
  refine h.congr_deriv ?_
  unfold swB2four swA2
  simp only [Nat.factorial, div_eq_mul_inv, mul_pow, inv_pow]
  push_cast
  ring

/-- The model overestimates the exact second virial coefficient, by the orders beyond the fourth. -/
theorem sw_virial_upper (l T : ℝ) (hl : 1 < l) (hT : 0 < T) : swB2exact l T < swB2four l T := by
  unfold swB2exact swB2four
  have hpi := Real.pi_pos
  have ht : 0 < 1 / T := by positivity
  have hl3 : 0 < l ^ 3 - 1 := sub_pos.mpr (one_lt_pow₀ hl (by norm_num))
  have h6 := Real.sum_le_exp_of_nonneg ht.le 6
  simp only [Finset.sum_range_succ, Finset.sum_range_zero, Nat.factorial] at h6
  have h5 : 0 < (1 / T) ^ 5 := by positivity
  have : (1 / T) + (1 / T) ^ 2 / 2 + (1 / T) ^ 3 / 6 + (1 / T) ^ 4 / 24 < Real.exp (1 / T) - 1 := by
    generalize 1 / T = t at *
    norm_num at h6
    linarith
  have := mul_lt_mul_of_pos_left this hl3
  have hp : 0 < 2 * Real.pi / 3 := by positivity
  nlinarith [mul_lt_mul_of_pos_left this hp]

example : (1 : ℝ) < 1.5 ∧ (0 : ℝ) < 1.2 := by norm_num

/-- **The next order in the density**: hard spheres contribute `5(π/6)²`, and the orders of the inverse temperature contribute exactly the
four coefficients `a31` to `a34`; the fitted functions do not enter. -/
theorem sw_third_virial (l T : ℝ) (hl : 1 < l) (_hT : 0 < T) : ∃ g : ℝ → ℝ, (∀ rho, swAlphar l T rho = rho * g rho) ∧ g 0 = swB2four l T ∧
    HasDerivAt g (5 * (Real.pi / 6) ^ 2 + swA31 l / T + swA32 l / T ^ 2 + swA33 l / T ^ 3 + swA34 l / T ^ 4) 0 := by
  have hl3 : l ^ 3 - 1 ≠ 0 := (sub_pos.mpr (one_lt_pow₀ hl (by norm_num))).ne'
  have hA : ∀ i, swA2 i l ≠ 0 := by
    intro i
    unfold swA2
    have hf : ((i.factorial : ℕ) : ℝ) ≠ 0 := by exact_mod_cast i.factorial_ne_zero
    exact mul_ne_zero (div_ne_zero (mul_ne_zero (by norm_num) Real.pi_ne_zero) (mul_ne_zero (by norm_num) hf)) hl3
  refine ⟨fun r => -3 * Real.pi * (Real.pi * r - 8) / (Real.pi * r - 6) ^ 2 + (swA2 1 l + swA31 l * r + ∑ i ∈ Icc 1 4, swGamma i l * r ^ (i + 1)) / T +
    swA2 2 l * (1 - r ^ 2 / 1.5129) * Real.exp (swXi2 l * r + swPhi 1 l * r ^ 3 + swPhi 2 l * r ^ 4) / T ^ 2 +
    swA2 3 l * Real.exp (swXi3 l * r + swK 3 r l) / T ^ 3 + swA2 4 l * Real.exp (swXi4 l * r + swK 4 r l) / T ^ 4, fun r => ?_, ?_, ?_⟩
  · have hs : ∑ i ∈ Icc 1 4, swGamma i l * r ^ (i + 2) = r * ∑ i ∈ Icc 1 4, swGamma i l * r ^ (i + 1) := by
      rw [Finset.mul_sum]
      exact Finset.sum_congr rfl fun i _ => by ring
    simp only [swAlphar, swHS, swa1, swa2, swa3, swa4, swChi, hs]
    ring
  · have hK0 : ∀ i, swK i 0 l = 0 := by
      intro i
      simp [swK]
    simp only [hK0]
    have : ∑ i ∈ Icc 1 4, swGamma i l * (0 : ℝ) ^ (i + 1) = 0 := Finset.sum_eq_zero fun i _ => by simp
    rw [this]
    unfold swB2four swA2
    simp only [Nat.factorial, div_eq_mul_inv, mul_pow, inv_pow]
    norm_num
    ring
  · have hHS : HasDerivAt (fun r : ℝ => -3 * Real.pi * (Real.pi * r - 8) / (Real.pi * r - 6) ^ 2) (5 * (Real.pi / 6) ^ 2) 0 := by
      have hn : HasDerivAt (fun rho : ℝ => -3 * Real.pi * (Real.pi * rho - 8)) (-3 * Real.pi * Real.pi) 0 := by
        refine ((((hasDerivAt_id (0 : ℝ)).const_mul Real.pi).sub_const 8).const_mul (-3 * Real.pi)).congr_deriv ?_
        simp
      have hd : HasDerivAt (fun rho : ℝ => (Real.pi * rho - 6) ^ 2) (-12 * Real.pi) 0 := by
        refine ((((hasDerivAt_id (0 : ℝ)).const_mul Real.pi).sub_const 6).fun_pow 2).congr_deriv ?_
        simp
        ring
      refine (hn.fun_div hd (by norm_num)).congr_deriv ?_
      simp
      ring
    have h1 : HasDerivAt (fun r : ℝ => swA2 1 l + swA31 l * r + ∑ i ∈ Icc 1 4, swGamma i l * r ^ (i + 1)) (swA31 l) 0 := by
      have hs : HasDerivAt (fun r : ℝ => ∑ i ∈ Icc 1 4, swGamma i l * r ^ (i + 1)) 0 0 := by
        have := HasDerivAt.fun_sum (u := Icc 1 4) fun i (_ : i ∈ Icc 1 4) => (hasDerivAt_pow (i + 1) (0 : ℝ)).const_mul (swGamma i l)
        refine this.congr_deriv ?_
        refine Finset.sum_eq_zero fun i hi => ?_
        have : i ≠ 0 := by have := (Finset.mem_Icc.mp hi).1; omega
        simp [this]
      refine (((((hasDerivAt_id (0 : ℝ)).const_mul (swA31 l)).const_add (swA2 1 l))).fun_add hs).congr_deriv ?_
      simp
    have h2 : HasDerivAt (fun r : ℝ => swA2 2 l * (1 - r ^ 2 / 1.5129) * Real.exp (swXi2 l * r + swPhi 1 l * r ^ 3 + swPhi 2 l * r ^ 4)) (swA32 l) 0 := by
      have hf : HasDerivAt (fun r : ℝ => swXi2 l * r + swPhi 1 l * r ^ 3 + swPhi 2 l * r ^ 4) (swXi2 l) 0 := by
        refine ((((hasDerivAt_id (0 : ℝ)).const_mul (swXi2 l)).fun_add ((hasDerivAt_pow 3 (0 : ℝ)).const_mul _)).fun_add
          ((hasDerivAt_pow 4 (0 : ℝ)).const_mul _)).congr_deriv ?_
        simp
      have hg : HasDerivAt (fun r : ℝ => swA2 2 l * (1 - r ^ 2 / 1.5129)) 0 0 := by
        refine ((((hasDerivAt_pow 2 (0 : ℝ)).div_const 1.5129).const_sub 1).const_mul (swA2 2 l)).congr_deriv ?_
        simp
      refine (hg.fun_mul hf.exp).congr_deriv ?_
      simp [swXi2, mul_div_cancel₀ _ (hA 2)]
    have hK : ∀ i, HasDerivAt (fun r => swK i r l) 0 0 := by
      intro i
      unfold swK
      have hn : HasDerivAt (fun r : ℝ => (∑ n ∈ Icc 1 4, (swThetaVals i).getD n 0 * l ^ n) * r ^ 2) 0 0 := by
        refine ((hasDerivAt_pow 2 (0 : ℝ)).const_mul _).congr_deriv ?_
        simp
      have hd : HasDerivAt (fun r : ℝ => 1 + r * ∑ n ∈ Icc 5 7, (swThetaVals i).getD n 0 * l ^ (n - 4)) (∑ n ∈ Icc 5 7, (swThetaVals i).getD n 0 * l ^ (n - 4)) 0 := by
        refine (((hasDerivAt_id (0 : ℝ)).mul_const _).const_add 1).congr_deriv ?_
        simp
      refine (hn.fun_div hd (by simp)).congr_deriv ?_
      simp
    have hE : ∀ (i : ℕ) (c xi : ℝ), HasDerivAt (fun r => c * Real.exp (xi * r + swK i r l)) (c * xi) 0 := by
      intro i c xi
      refine ((((((hasDerivAt_id (0 : ℝ)).const_mul xi).fun_add (hK i)).exp).const_mul c)).congr_deriv ?_
      simp [swK]
    have h3 := hE 3 (swA2 3 l) (swXi3 l)
    have h4 := hE 4 (swA2 4 l) (swXi4 l)
    rw [show swA2 3 l * swXi3 l = swA33 l by rw [swXi3, mul_div_cancel₀ _ (hA 3)]] at h3
    rw [show swA2 4 l * swXi4 l = swA34 l by rw [swXi4, mul_div_cancel₀ _ (hA 4)]] at h4
    exact (((hHS.fun_add (h1.div_const T)).fun_add (h2.div_const (T ^ 2))).fun_add (h3.div_const (T ^ 3))).fun_add (h4.div_const (T ^ 4))

example : (1 : ℝ) < 1.8 ∧ (0 : ℝ) < 0.9 := by norm_num

/-- The polynomials of the two branches have the same values at `λ = 2`. -/
theorem sw_polynomials : swP1 2 = 17 ∧ swP2 2 = swP4 2 ∧ swP3 2 = swP5 2 := by
  unfold swP1 swP2 swP3 swP4 swP5
  norm_num

theorem tendsto_right_of_branch {f g : ℝ → ℝ} {L : ℝ} (hfg : ∀ l, 2 < l → f l = g l) (hg : ContinuousAt g 2) (hL : g 2 = L) :
    Tendsto f (𝓝[>] 2) (𝓝 L) := by
  rw [← hL]
  refine (hg.tendsto.mono_left nhdsWithin_le_nhds).congr' ?_
  filter_upwards [self_mem_nhdsWithin] with l hl
  exact (hfg l hl).symm

/-- **The second-density coefficient of the first-order term is the published polynomial up to width 2 and constant above.** -/
theorem sw_a31 (l : ℝ) : (l ≤ 2 → swA31 l = -(Real.pi / 6) ^ 2 * (l ^ 6 - 18 * l ^ 4 + 32 * l ^ 3 - 15)) ∧ (2 ≤ l → swA31 l = -(Real.pi / 6) ^ 2 * 17) := by
  refine ⟨fun h => ?_, fun h => ?_⟩ <;> unfold swA31 swP1
  · rw [min_eq_left h]
  · rw [min_eq_right h]
    norm_num

example : swA31 3 = swA31 2 := by rw [(sw_a31 3).2 (by norm_num), (sw_a31 2).2 le_rfl]

/-- **Three coefficients jump at `λ = 2`**, because `17/2`, `17/6` and `17/24` are divisions of integers in the code: the limits from
above exceed the values at two by `(π/6)²` times one half, five sixths and seventeen twenty-fourths. -/
theorem sw_jumps :
    Tendsto swA32 (𝓝[>] 2) (𝓝 (swA32 2 + (Real.pi / 6) ^ 2 * (1 / 2))) ∧
    Tendsto swA33 (𝓝[>] 2) (𝓝 (swA33 2 + (Real.pi / 6) ^ 2 * (5 / 6))) ∧
    Tendsto swA34 (𝓝[>] 2) (𝓝 (swA34 2 + (Real.pi / 6) ^ 2 * (17 / 24))) ∧
    ¬ ContinuousAt swA32 2 ∧ ¬ ContinuousAt swA33 2 ∧ ¬ ContinuousAt swA34 2 := by
  have hpi : 0 < (Real.pi / 6) ^ 2 := by have := Real.pi_pos; positivity
  have c4 : Continuous swP4 := by unfold swP4; fun_prop
  have c5 : Continuous swP5 := by unfold swP5; fun_prop
  have h2 : Tendsto swA32 (𝓝[>] 2) (𝓝 (swA32 2 + (Real.pi / 6) ^ 2 * (1 / 2))) := by
    refine tendsto_right_of_branch (g := fun l => (Real.pi / 6) ^ 2 * (((Int.tdiv (-17) 2 : ℤ) : ℝ) + swP4 l)) (fun l hl => ?_) (by fun_prop) ?_
    · unfold swA32
      rw [if_neg (not_le.mpr hl)]
    · unfold swA32
      rw [if_pos le_rfl, sw_polynomials.1, sw_polynomials.2.1, show Int.tdiv (-17) 2 = -8 from rfl]
      push_cast
      ring
  have h3 : Tendsto swA33 (𝓝[>] 2) (𝓝 (swA33 2 + (Real.pi / 6) ^ 2 * (5 / 6))) := by
    refine tendsto_right_of_branch (g := fun l => (Real.pi / 6) ^ 2 * (((Int.tdiv (-17) 6 : ℤ) : ℝ) + swP4 l - swP5 l)) (fun l hl => ?_) (by fun_prop) ?_
    · unfold swA33
      rw [if_neg (not_le.mpr hl)]
    · unfold swA33
      rw [if_pos le_rfl, sw_polynomials.1, sw_polynomials.2.1, sw_polynomials.2.2, show Int.tdiv (-17) 6 = -2 from rfl]
      push_cast
      ring
  have h4 : Tendsto swA34 (𝓝[>] 2) (𝓝 (swA34 2 + (Real.pi / 6) ^ 2 * (17 / 24))) := by
    refine tendsto_right_of_branch (g := fun l => (Real.pi / 6) ^ 2 * (((Int.tdiv (-17) 24 : ℤ) : ℝ) + 7 * swP4 l / 12 - 3 * swP5 l / 2))
      (fun l hl => ?_) (by fun_prop) ?_
    · unfold swA34
      rw [if_neg (not_le.mpr hl)]
    · unfold swA34
      rw [if_pos le_rfl, sw_polynomials.1, sw_polynomials.2.1, sw_polynomials.2.2, show Int.tdiv (-17) 24 = 0 from rfl]
      push_cast
      ring
  have key : ∀ (f : ℝ → ℝ) (d : ℝ), 0 < d → Tendsto f (𝓝[>] 2) (𝓝 (f 2 + (Real.pi / 6) ^ 2 * d)) → ¬ ContinuousAt f 2 := by
    intro f d hd hf hc
    have := tendsto_nhds_unique hf (hc.tendsto.mono_left nhdsWithin_le_nhds)
    have := mul_pos hpi hd
    linarith
  exact ⟨h2, h3, h4, key _ _ (by norm_num) h2, key _ _ (by norm_num) h3, key _ _ (by norm_num) h4⟩

/-- What the code would compute with real quotients. -/
theorem sw_continuous_partial : ContinuousAt swA31 2 ∧
    (Real.pi / 6) ^ 2 * (swP2 2 - swP1 2 / 2) = (Real.pi / 6) ^ 2 * (-17 / 2 + swP4 2) ∧
    (Real.pi / 6) ^ 2 * (swP2 2 - swP1 2 / 6 - swP3 2) = (Real.pi / 6) ^ 2 * (-17 / 6 + swP4 2 - swP5 2) ∧
    (Real.pi / 6) ^ 2 * (-swP1 2 / 24 + 7 * swP2 2 / 12 - 3 * swP3 2 / 2) = (Real.pi / 6) ^ 2 * (-17 / 24 + 7 * swP4 2 / 12 - 3 * swP5 2 / 2) := by
  obtain ⟨p1, p2, p3⟩ := sw_polynomials
  refine ⟨?_, ?_, ?_, ?_⟩
  · unfold swA31
    have : Continuous swP1 := by unfold swP1; fun_prop
    fun_prop
  · rw [p1, p2]; ring
  · rw [p1, p2, p3]; ring
  · rw [p1, p2, p3]

theorem swQ_ne (n : ℕ) (hn : n ∈ Icc 1 4) : swQ (swGammaVals n) 2 ≠ 0 := by
  have : n = 1 ∨ n = 2 ∨ n = 3 ∨ n = 4 := by simp only [mem_Icc] at hn; omega
  rcases this with h | h | h | h <;> subst h <;>
    simp only [swQ, swGammaVals, show Icc 10 14 = {10, 11, 12, 13, 14} from rfl] <;> norm_num [Finset.sum_insert]

theorem swGamma_continuous (n : ℕ) (hn : n ∈ Icc 1 4) : ContinuousAt (swGamma n) 2 := by
  unfold swGamma
  have h1 : ContinuousAt (fun l => swR (swGammaVals n) l) 2 := by unfold swR; fun_prop
  have h2 : ContinuousAt (fun l => swQ (swGammaVals n) l) 2 := by unfold swQ; fun_prop
  exact ContinuousAt.add (by fun_prop) (h1.div h2 (swQ_ne n hn))

theorem swTheta_pos (i : ℕ) (hi : i = 3 ∨ i = 4) : 0 < ∑ n ∈ Icc 5 7, (swThetaVals i).getD n 0 * (2 : ℝ) ^ (n - 4) := by
  rcases hi with h | h <;> subst h <;> simp only [swThetaVals, show Icc 5 7 = {5, 6, 7} from rfl] <;> norm_num [Finset.sum_insert]

theorem swK_continuous (i : ℕ) (hi : i = 3 ∨ i = 4) (rho : ℝ) (hr : 0 < rho) : ContinuousAt (fun l => swK i rho l) 2 := by
  unfold swK
  refine ContinuousAt.div (by fun_prop) (by fun_prop) ?_
  have := mul_pos hr (swTheta_pos i hi)
  linarith

/-- **The Helmholtz energy jumps at `λ = 2`**: at every temperature and every density up to 1.23 the limit from above is larger than
the value at `λ = 2`. -/
theorem sw_alphar_jump (T rho : ℝ) (hT : 0 < T) (hr : 0 < rho) (hr' : rho < 1.23) :
    ∃ L, Tendsto (fun l => swAlphar l T rho) (𝓝[>] 2) (𝓝 L) ∧ swAlphar 2 T rho < L := by
  obtain ⟨j2, j3, j4, -⟩ := sw_jumps
  have hpi := Real.pi_pos
  have hp : 0 < (Real.pi / 6) ^ 2 := by positivity
  have cA : ∀ i, ContinuousAt (swA2 i) 2 := fun i => by unfold swA2; fun_prop
  have nA : ∀ i, swA2 i 2 < 0 := by
    intro i
    unfold swA2
    have : 0 < (i.factorial : ℝ) := by exact_mod_cast i.factorial_pos
    have h : 0 < 2 * Real.pi / (3 * (i.factorial : ℝ)) := by positivity
    rw [show -2 * Real.pi / (3 * (i.factorial : ℝ)) * (2 ^ 3 - 1) = -(7 * (2 * Real.pi / (3 * (i.factorial : ℝ)))) by ring]
    linarith
  have right : ∀ {f : ℝ → ℝ}, ContinuousAt f 2 → Tendsto f (𝓝[>] 2) (𝓝 (f 2)) := fun h => h.tendsto.mono_left nhdsWithin_le_nhds
  -- the exponents
  have x2 : Tendsto swXi2 (𝓝[>] 2) (𝓝 ((swA32 2 + (Real.pi / 6) ^ 2 * (1 / 2)) / swA2 2 2)) := j2.div (right (cA 2)) (nA 2).ne
  have x3 : Tendsto swXi3 (𝓝[>] 2) (𝓝 ((swA33 2 + (Real.pi / 6) ^ 2 * (5 / 6)) / swA2 3 2)) := j3.div (right (cA 3)) (nA 3).ne
  have x4 : Tendsto swXi4 (𝓝[>] 2) (𝓝 ((swA34 2 + (Real.pi / 6) ^ 2 * (17 / 24)) / swA2 4 2)) := j4.div (right (cA 4)) (nA 4).ne
  have l1 : Tendsto (fun l => swa1 rho l) (𝓝[>] 2) (𝓝 (swa1 rho 2)) := by
    refine right (f := fun l => swa1 rho l) ?_
    unfold swa1
    have h31 := sw_continuous_partial.1
    refine ContinuousAt.add (((cA 1).mul continuousAt_const).add (h31.mul continuousAt_const)) ?_
    exact tendsto_finsetSum _ fun i hi => (swGamma_continuous i hi).mul continuousAt_const
  have cphi : ∀ i, ContinuousAt (swPhi i) 2 := fun i => by unfold swPhi; fun_prop
  have l2 : Tendsto (fun l => swa2 rho l) (𝓝[>] 2) (𝓝 (swChi rho 2 * Real.exp ((swA32 2 + (Real.pi / 6) ^ 2 * (1 / 2)) / swA2 2 2 * rho +
      swPhi 1 2 * rho ^ 3 + swPhi 2 2 * rho ^ 4))) := by
    unfold swa2 swChi
    refine ((right ((cA 2).mul continuousAt_const)).mul tendsto_const_nhds).mul ?_
    refine (Real.continuous_exp.tendsto _).comp ?_
    exact ((x2.mul tendsto_const_nhds).add (right ((cphi 1).mul continuousAt_const))).add (right ((cphi 2).mul continuousAt_const))
  have l3 : Tendsto (fun l => swa3 rho l) (𝓝[>] 2) (𝓝 (swA2 3 2 * rho * Real.exp ((swA33 2 + (Real.pi / 6) ^ 2 * (5 / 6)) / swA2 3 2 * rho + swK 3 rho 2))) := by
    unfold swa3
    refine (right ((cA 3).mul continuousAt_const)).mul ((Real.continuous_exp.tendsto _).comp ?_)
    exact (x3.mul tendsto_const_nhds).add (right (swK_continuous 3 (Or.inl rfl) rho hr))
  have l4 : Tendsto (fun l => swa4 rho l) (𝓝[>] 2) (𝓝 (swA2 4 2 * rho * Real.exp ((swA34 2 + (Real.pi / 6) ^ 2 * (17 / 24)) / swA2 4 2 * rho + swK 4 rho 2))) := by
    unfold swa4
    refine (right ((cA 4).mul continuousAt_const)).mul ((Real.continuous_exp.tendsto _).comp ?_)
    exact (x4.mul tendsto_const_nhds).add (right (swK_continuous 4 (Or.inr rfl) rho hr))
  refine ⟨_, ((((tendsto_const_nhds (x := swHS rho)).add (l1.div_const T)).add (l2.div_const (T ^ 2))).add (l3.div_const (T ^ 3))).add (l4.div_const (T ^ 4)), ?_⟩
  unfold swAlphar
  -- a smaller exponent with a negative factor
  have cmp : ∀ (c a n d e : ℝ), c < 0 → n < 0 → 0 < d → c * Real.exp (a / n * rho + e) < c * Real.exp ((a + (Real.pi / 6) ^ 2 * d) / n * rho + e) := by
    intro c a n d e hc hn hd
    refine mul_lt_mul_of_neg_left (Real.exp_lt_exp.mpr ?_) hc
    have : (Real.pi / 6) ^ 2 * d / n < 0 := div_neg_of_pos_of_neg (by positivity) hn
    have := mul_neg_of_neg_of_pos this hr
    rw [add_div, add_mul]
    linarith
  have m2 : swa2 rho 2 < swChi rho 2 * Real.exp ((swA32 2 + (Real.pi / 6) ^ 2 * (1 / 2)) / swA2 2 2 * rho + swPhi 1 2 * rho ^ 3 + swPhi 2 2 * rho ^ 4) := by
    unfold swa2 swXi2
    have hchi : swChi rho 2 < 0 := by
      unfold swChi
      have : 0 < 1 - rho ^ 2 / 1.5129 := by
        have : rho ^ 2 < 1.5129 := by nlinarith
        have := (div_lt_one (show (0 : ℝ) < 1.5129 by norm_num)).mpr this
        linarith
      exact mul_neg_of_neg_of_pos (mul_neg_of_neg_of_pos (nA 2) hr) this
    rw [add_assoc, add_assoc]
    exact cmp _ _ _ _ _ hchi (nA 2) (by norm_num)
  have m3 : swa3 rho 2 < swA2 3 2 * rho * Real.exp ((swA33 2 + (Real.pi / 6) ^ 2 * (5 / 6)) / swA2 3 2 * rho + swK 3 rho 2) :=
    cmp _ _ _ _ _ (mul_neg_of_neg_of_pos (nA 3) hr) (nA 3) (by norm_num)
  have m4 : swa4 rho 2 < swA2 4 2 * rho * Real.exp ((swA34 2 + (Real.pi / 6) ^ 2 * (17 / 24)) / swA2 4 2 * rho + swK 4 rho 2) :=
    cmp _ _ _ _ _ (mul_neg_of_neg_of_pos (nA 4) hr) (nA 4) (by norm_num)
  have d2 := div_lt_div_of_pos_right m2 (show 0 < T ^ 2 by positivity)
  have d3 := div_lt_div_of_pos_right m3 (show 0 < T ^ 3 by positivity)
  have d4 := div_lt_div_of_pos_right m4 (show 0 < T ^ 4 by positivity)
  linarith

example : (0 : ℝ) < 1.5 ∧ (0 : ℝ) < 0.4 ∧ (0.4 : ℝ) < 1.23 := by norm_num

end Teqp.Props

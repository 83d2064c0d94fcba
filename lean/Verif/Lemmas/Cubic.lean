import Verif.Model.VdW
import Verif.Model.Cubic
import Verif.Spec.Cubic
import Mathlib.Analysis.SpecialFunctions.Log.Deriv
import Mathlib.Analysis.SpecialFunctions.Sqrt
import Mathlib.Analysis.Calculus.Deriv.Inv
import Mathlib.Analysis.Calculus.Deriv.Mul
import Mathlib.Topology.Order.Basic
import Mathlib.Tactic.FieldSimp
import Mathlib.Tactic.Linarith
import Mathlib.Tactic.LinearCombination
import Mathlib.Tactic.Positivity

/-! # Lemmas about cubic isotherms -/

set_option autoImplicit false

namespace Teqp.Lemmas
open Teqp.Model Teqp.Spec Filter Topology

/-- Density form of the cubic pressure, with `s = Δ₁+Δ₂`, `m = Δ₁Δ₂`. -/
noncomputable def cubicP (RT a b s m ρ : ℝ) : ℝ :=
  RT * ρ / (1 - b * ρ) - a * ρ ^ 2 / (1 + s * b * ρ + m * b ^ 2 * ρ ^ 2)

noncomputable def cubicP1 (RT a b s m ρ : ℝ) : ℝ :=
  RT / (1 - b * ρ) ^ 2 - a * (2 * ρ + s * b * ρ ^ 2) / (1 + s * b * ρ + m * b ^ 2 * ρ ^ 2) ^ 2

noncomputable def cubicP2 (RT a b s m ρ : ℝ) : ℝ :=
  2 * RT * b / (1 - b * ρ) ^ 3 - a * ((2 + 2 * s * b * ρ) * (1 + s * b * ρ + m * b ^ 2 * ρ ^ 2)
    - 2 * (2 * ρ + s * b * ρ ^ 2) * (s * b + 2 * m * b ^ 2 * ρ))
    / (1 + s * b * ρ + m * b ^ 2 * ρ ^ 2) ^ 3

theorem hasDerivAt_cubicP {RT a b s m ρ : ℝ} (h1 : 1 - b * ρ ≠ 0)
    (h2 : 1 + s * b * ρ + m * b ^ 2 * ρ ^ 2 ≠ 0) :
    HasDerivAt (cubicP RT a b s m) (cubicP1 RT a b s m ρ) ρ := by
  have e1 : HasDerivAt (fun r : ℝ => 1 - b * r) (-b) ρ := by
    simpa using ((hasDerivAt_id ρ).const_mul b).const_sub 1
  have e2 : HasDerivAt (fun r : ℝ => 1 + s * b * r + m * b ^ 2 * r ^ 2)
      (s * b + m * b ^ 2 * (2 * ρ)) ρ := by
    have := (((hasDerivAt_id ρ).const_mul (s * b)).const_add 1).add
      ((hasDerivAt_pow 2 ρ).const_mul (m * b ^ 2))
    refine this.congr_deriv ?_
    simp
  have e3 := ((hasDerivAt_id ρ).const_mul RT).div e1 h1
  have e4 := ((hasDerivAt_pow 2 ρ).const_mul a).div e2 h2
  refine (e3.sub e4).congr_deriv ?_
  unfold cubicP1
  simp only [id]
  field_simp
  ring

theorem hasDerivAt_cubicP1 {RT a b s m ρ : ℝ} (h1 : 1 - b * ρ ≠ 0)
    (h2 : 1 + s * b * ρ + m * b ^ 2 * ρ ^ 2 ≠ 0) :
    HasDerivAt (cubicP1 RT a b s m) (cubicP2 RT a b s m ρ) ρ := by
  have e1 : HasDerivAt (fun r : ℝ => 1 - b * r) (-b) ρ := by
    simpa using ((hasDerivAt_id ρ).const_mul b).const_sub 1
  have e2 : HasDerivAt (fun r : ℝ => 1 + s * b * r + m * b ^ 2 * r ^ 2)
      (s * b + m * b ^ 2 * (2 * ρ)) ρ := by
    have := (((hasDerivAt_id ρ).const_mul (s * b)).const_add 1).add
      ((hasDerivAt_pow 2 ρ).const_mul (m * b ^ 2))
    refine this.congr_deriv ?_
    simp
  have e5 : HasDerivAt (fun r : ℝ => a * (2 * r + s * b * r ^ 2)) (a * (2 + s * b * (2 * ρ))) ρ := by
    have := (((hasDerivAt_id ρ).const_mul 2).add
      ((hasDerivAt_pow 2 ρ).const_mul (s * b))).const_mul a
    refine this.congr_deriv ?_
    simp
  have e3 := (hasDerivAt_const ρ RT).div (e1.pow 2) (pow_ne_zero 2 h1)
  have e4 := e5.div (e2.pow 2) (pow_ne_zero 2 h2)
  refine (e3.sub e4).congr_deriv ?_
  unfold cubicP2
  simp only [Pi.pow_apply, Nat.cast_ofNat, Nat.reduceSub, pow_one]
  generalize 1 + s * b * ρ + m * b ^ 2 * ρ ^ 2 = q at h2 ⊢
  generalize 1 - b * ρ = u at h1 ⊢
  field_simp
  ring

/-- A pressure that agrees with the cubic form near `ρ` has the critical point there when the three
algebraic conditions hold. -/
theorem critical_of_cubicP {p : ℝ → ℝ} {RT a b s m ρ pc : ℝ} (h1 : 1 - b * ρ ≠ 0)
    (h2 : 1 + s * b * ρ + m * b ^ 2 * ρ ^ 2 ≠ 0)
    (hp : p =ᶠ[𝓝 ρ] cubicP RT a b s m)
    (c0 : cubicP RT a b s m ρ = pc) (c1 : cubicP1 RT a b s m ρ = 0)
    (c2 : cubicP2 RT a b s m ρ = 0) : IsCriticalPoint p ρ pc := by
  refine ⟨hp.eq_of_nhds.trans c0, ?_, ?_⟩
  · rw [← c1]; exact (hasDerivAt_cubicP h1 h2).congr_of_eventuallyEq hp
  · rw [← c2]
    refine (hasDerivAt_cubicP1 h1 h2).congr_of_eventuallyEq ?_
    have n1 : ∀ᶠ r in 𝓝 ρ, 1 - b * r ≠ 0 :=
      ContinuousAt.eventually_ne (by fun_prop) h1
    have n2 : ∀ᶠ r in 𝓝 ρ, 1 + s * b * r + m * b ^ 2 * r ^ 2 ≠ 0 :=
      ContinuousAt.eventually_ne (by fun_prop) h2
    filter_upwards [hp.eventually_nhds, n1, n2] with r hr hr1 hr2
    rw [EventuallyEq.deriv_eq (f := cubicP RT a b s m) hr]
    exact (hasDerivAt_cubicP hr1 hr2).deriv

theorem hasDerivAt_cubicAlphar {R a b D1 D2 T ρ : ℝ} (hb : b ≠ 0) (hD : D1 ≠ D2)
    (h1 : 1 - b * ρ ≠ 0) (h2 : D1 * b * ρ + 1 ≠ 0) (h3 : D2 * b * ρ + 1 ≠ 0) :
    HasDerivAt (fun r => cubicAlphar R a b D1 D2 T r)
      (b / (1 - b * ρ) - a / (R * T) / ((D1 * b * ρ + 1) * (D2 * b * ρ + 1))) ρ := by
  have e1 : HasDerivAt (fun r : ℝ => 1 - b * r) (-b) ρ := by
    simpa using ((hasDerivAt_id ρ).const_mul b).const_sub 1
  have e2 : ∀ D : ℝ, HasDerivAt (fun r : ℝ => D * b * r + 1) (D * b) ρ := fun D => by
    simpa using ((hasDerivAt_id ρ).const_mul (D * b)).add_const 1
  have e3 := (e1.log h1).neg
  have e4 := ((((e2 D1).div (e2 D2) h3).log (div_ne_zero h2 h3)).div_const
    (b * (D1 - D2))).const_mul (a / (R * T))
  refine (e3.sub e4).congr_deriv ?_
  have hD' : D1 - D2 ≠ 0 := sub_ne_zero.mpr hD
  simp only [Pi.div_apply]
  generalize a / (R * T) = k
  field_simp
  ring

/-- Total pressure of the cubic residual Helmholtz energy in density form. -/
theorem totalPressure_cubicAlphar {R a b D1 D2 T ρ : ℝ} (hR : R ≠ 0) (hT : T ≠ 0) (hb : b ≠ 0)
    (hD : D1 ≠ D2) (h1 : 1 - b * ρ ≠ 0) (h2 : D1 * b * ρ + 1 ≠ 0) (h3 : D2 * b * ρ + 1 ≠ 0) :
    totalPressure (fun T r => cubicAlphar R a b D1 D2 T r) R T ρ
      = cubicP (R * T) a b (D1 + D2) (D1 * D2) ρ := by
  have h := ((hasDerivAt_cubicAlphar (R := R) (a := a) (T := T) hb hD h1 h2 h3).mul_const
    R).mul_const T
  unfold totalPressure pressure helmholtz cubicP
  rw [h.deriv]
  have e : 1 + (D1 + D2) * b * ρ + D1 * D2 * b ^ 2 * ρ ^ 2
      = (D1 * b * ρ + 1) * (D2 * b * ρ + 1) := by ring
  rw [e]
  generalize hq : (D1 * b * ρ + 1) * (D2 * b * ρ + 1) = q
  have hq0 : q ≠ 0 := hq ▸ mul_ne_zero h2 h3
  obtain ⟨u, hu⟩ : ∃ u, u = 1 - b * ρ := ⟨_, rfl⟩
  rw [← hu] at h1 ⊢
  field_simp
  linear_combination (ρ * q * R * T) * hu

theorem hasDerivAt_vdW {RR a b T ρ : ℝ} (h1 : 1 - b * ρ ≠ 0) :
    HasDerivAt (fun r => -Real.log (1 - b * r) - a / (RR * T) * r)
      (b / (1 - b * ρ) - a / (RR * T)) ρ := by
  have e1 : HasDerivAt (fun r : ℝ => 1 - b * r) (-b) ρ := by
    simpa using ((hasDerivAt_id ρ).const_mul b).const_sub 1
  refine ((e1.log h1).neg.sub ((hasDerivAt_id ρ).const_mul (a / (RR * T)))).congr_deriv ?_
  field_simp

theorem totalPressure_vdW {RR a b T ρ : ℝ} (hR : RR ≠ 0) (hT : T ≠ 0) (h1 : 1 - b * ρ ≠ 0) :
    totalPressure (fun T r => -Real.log (1 - b * r) - a / (RR * T) * r) RR T ρ
      = cubicP (RR * T) a b 0 0 ρ := by
  have h := ((hasDerivAt_vdW (RR := RR) (a := a) (T := T) h1).mul_const RR).mul_const T
  unfold totalPressure pressure helmholtz cubicP
  rw [h.deriv]
  have : (1 + 0 * b * ρ + 0 * b ^ 2 * ρ ^ 2 : ℝ) = 1 := by ring
  rw [this]
  obtain ⟨u, hu⟩ : ∃ u, u = 1 - b * ρ := ⟨_, rfl⟩
  rw [← hu] at h1 ⊢
  field_simp
  linear_combination (ρ * RR * T) * hu

theorem cubicP_volume {RT a b s m ρ : ℝ} (hρ : ρ ≠ 0) :
    cubicP RT a b s m ρ
      = RT / (1 / ρ - b) - a / ((1 / ρ) ^ 2 + s * b * (1 / ρ) + m * b ^ 2) := by
  unfold cubicP
  have e1 : 1 / ρ - b = (1 - b * ρ) / ρ := by field_simp
  have e2 : (1 / ρ) ^ 2 + s * b * (1 / ρ) + m * b ^ 2
      = (1 + s * b * ρ + m * b ^ 2 * ρ ^ 2) / ρ ^ 2 := by field_simp
  rw [e1, e2, div_div_eq_mul_div, div_div_eq_mul_div]

/-! ## Cube roots -/

theorem cbrt_cube {x : ℝ} (hx : 0 ≤ x) : (x ^ (1 / 3 : ℝ)) ^ 3 = x := by
  rw [← Real.rpow_natCast, ← Real.rpow_mul hx]; norm_num

end Teqp.Lemmas

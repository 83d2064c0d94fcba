import Verif.Model.IterationJv
import Verif.Lemmas.Thermo

/-! # C11: values and Jacobian rows of the property iterator -/

set_option autoImplicit false

namespace Teqp.Props
open Teqp.Model Teqp.Spec Teqp.Calc Teqp.Lemmas

/-- The state function requested by a variable letter. -/
noncomputable def stateFunction (var : Char) (α : ℝ → ℝ → ℝ) (R : ℝ) : Option (ℝ → ℝ → ℝ) :=
  if var = 'T' then some fun T _ => T
  else if var = 'D' then some fun _ ρ => ρ
  else if var = 'P' then some (pressure α R)
  else if var = 'S' then some (entropy α R)
  else if var = 'H' then some (enthalpy α R)
  else if var = 'U' then some (energy α R)
  else none

/-- C11. For every requested variable the iterator's row holds the classical state function
and its partial derivatives with respect to temperature and density; letters that are not one of
`T D P S H U` are refused with `std::invalid_argument`. `α` is the total (ideal-gas plus residual)
reduced Helmholtz energy, twice continuously differentiable at the point. -/
theorem jvRow_exact (var : Char) (α : ℝ → ℝ → ℝ) (R T ρ : ℝ) (hT : T ≠ 0) (hρ : ρ ≠ 0)
    (h : ContDiffAt ℝ 2 (unc α) (T, ρ)) :
    match stateFunction var α R with
    | none => jvRow var (fun i j => Lambda α i j T ρ) R T ρ = .throws .stdInvalidArgument
    | some f => ∃ row, jvRow var (fun i j => Lambda α i j T ρ) R T ρ = .ok row ∧
        row.v = f T ρ ∧
        HasDerivAt (fun T' => f T' ρ) row.dT T ∧
        HasDerivAt (fun ρ' => f T ρ') row.drho ρ := by
  have P := partials hT h
  have e00 : Lambda α 0 0 T ρ = recipForm α (1 / T) ρ := by rw [Lambda00, recipForm_recip]
  unfold stateFunction
  by_cases hv : var = 'T'
  · subst hv
    exact ⟨_, rfl, rfl, hasDerivAt_id T, hasDerivAt_const ρ T⟩
  rw [if_neg hv]
  by_cases hv2 : var = 'D'
  · subst hv2
    exact ⟨_, rfl, rfl, hasDerivAt_const T ρ, hasDerivAt_id ρ⟩
  rw [if_neg hv2]
  by_cases hv3 : var = 'P'
  · subst hv3
    refine ⟨_, rfl, ?_, (pressure_dT R hT P).congr_deriv ?_, (pressure_drho R P).congr_deriv ?_⟩
    · simp only []
      rw [pressure_of R P.h_r, Lambda01 P]; field_simp
    · simp only []
      rw [Lambda01 P, Lambda11 P]; field_simp; ring
    · simp only []
      rw [Lambda01 P, Lambda02 P]; field_simp; ring
  rw [if_neg hv3]
  by_cases hv4 : var = 'S'
  · subst hv4
    refine ⟨_, rfl, ?_, (entropy_dT R hT P).congr_deriv ?_, (entropy_drho R hT P).congr_deriv ?_⟩
    · simp only []
      rw [entropy_of R hT P.h_t, Lambda10 P, e00]; field_simp
    · simp only []
      rw [Lambda10 P, Lambda20 P, e00]; field_simp; ring
    · simp only []
      rw [Lambda01 P, Lambda11 P]; field_simp
  rw [if_neg hv4]
  by_cases hv5 : var = 'H'
  · subst hv5
    refine ⟨_, rfl, ?_, (enthalpy_dT R hT P).congr_deriv ?_,
      (enthalpy_drho R hT hρ P).congr_deriv ?_⟩
    · simp only []
      unfold enthalpy
      rw [energy_of R hT P.h_t, pressure_of R P.h_r, Lambda10 P, Lambda01 P, e00]
      field_simp; ring
    · simp only []
      rw [Lambda10 P, Lambda20 P, Lambda11 P, Lambda01 P, e00]; field_simp; ring
    · simp only []
      rw [Lambda01 P, Lambda11 P, Lambda02 P]; field_simp; ring
  rw [if_neg hv5]
  by_cases hv6 : var = 'U'
  · subst hv6
    refine ⟨_, rfl, ?_, (energy_dT R hT P).congr_deriv ?_, (energy_drho R hT P).congr_deriv ?_⟩
    · simp only []
      rw [energy_of R hT P.h_t, Lambda10 P, e00]; field_simp; ring
    · simp only []
      rw [Lambda10 P, Lambda20 P, e00]; field_simp; ring
    · simp only []
      rw [Lambda01 P, Lambda11 P]; field_simp; ring
  rw [if_neg hv6]
  unfold jvRow
  simp only []

/-- C11. Requesting two variables yields their two rows; one bad letter makes the call throw, and
a request for three valid variables writes outside the two-row arrays. -/
theorem buildIterationJv_pair (c d : Char) (A : ℕ → ℕ → ℝ) (R T ρ : ℝ) :
    buildIterationJv [c, d] A R T ρ =
      ((jvRow c A R T ρ).bind fun r1 => (jvRow d A R T ρ).bind fun r2 => .ok [r1, r2]) := by
  simp only [buildIterationJv, buildIterationJv.go]
  cases jvRow c A R T ρ <;> simp
  cases jvRow d A R T ρ <;> simp

theorem buildIterationJv_three_ub (c d e : Char) (A : ℕ → ℕ → ℝ) (R T ρ : ℝ) (r1 r2 r3 : JvRow)
    (h1 : jvRow c A R T ρ = .ok r1) (h2 : jvRow d A R T ρ = .ok r2)
    (h3 : jvRow e A R T ρ = .ok r3) :
    buildIterationJv [c, d, e] A R T ρ = .ub := by
  simp [buildIterationJv, buildIterationJv.go, h1, h2, h3]

/-- The hypotheses are met by the two-term rational model `α = ρ²/T + ρT`. -/
example : ContDiffAt ℝ 2 (unc fun T ρ : ℝ => ρ ^ 2 / T + ρ * T) (300, 2) := by
  have : (300 : ℝ) ≠ 0 := by norm_num
  have h1 : ContDiffAt ℝ 2 (fun p : ℝ × ℝ => p.1) ((300 : ℝ), (2 : ℝ)) := contDiffAt_fst
  have h2 : ContDiffAt ℝ 2 (fun p : ℝ × ℝ => p.2) ((300 : ℝ), (2 : ℝ)) := contDiffAt_snd
  exact ((h2.pow 2).div h1 this).add (h2.mul h1)

example (A : ℕ → ℕ → ℝ) : buildIterationJv ['T', 'D', 'P'] A 8.3 300 2 = .ub :=
  buildIterationJv_three_ub _ _ _ _ _ _ _ _ _ _ rfl rfl rfl

end Teqp.Props

import Verif.Model.Lambda
import Verif.Spec.Thermo
import Verif.Lemmas.Powi
import Mathlib.Tactic.IntervalCases
import Mathlib.Analysis.SpecialFunctions.Pow.Deriv

/-! # C02, C03: reduced derivatives -/

set_option autoImplicit false

namespace Teqp.Props
open Teqp.Model Teqp.Spec

/-- C02. Every compile-time branch of the derivative evaluator returns the documented
`Λ_ij = (1/T)^i ρ^j ∂^{i+j}α/∂(1/T)^i∂ρ^j`, for every order. -/
theorem Agenxy_is_Lambda (α : ℝ → ℝ → ℝ) (i j : ℕ) (T ρ : ℝ) :
    Agenxy α i j T ρ = Lambda α i j T ρ := by
  unfold Agenxy Lambda
  simp only [powiNat_eq]
  split
  · rename_i h; simp [h.1, h.2]
  · split
    · rename_i h; subst h; simp
    · split
      · rename_i h; subst h; simp
      · rfl

/-- C02. The run-time accessor succeeds exactly for `i, j ≥ 0`, `i + j ≤ 3`, returns `Λ_ij` there,
and refuses every other pair of integers with `std::invalid_argument`. -/
theorem getAr_total (α : ℝ → ℝ → ℝ) (i j : Int) (T ρ : ℝ) :
    getAr i j α T ρ =
      if 0 ≤ i ∧ 0 ≤ j ∧ i + j ≤ 3 then .ok (Lambda α i.toNat j.toNat T ρ)
      else .throws .stdInvalidArgument := by
  have key : ArDispatch i j =
      if 0 ≤ i ∧ 0 ≤ j ∧ i + j ≤ 3 then .ok (i.toNat, j.toNat) else .throws .stdInvalidArgument := by
    by_cases h : 0 ≤ i ∧ 0 ≤ j ∧ i + j ≤ 3
    · rw [if_pos h]
      obtain ⟨hi, hj, hij⟩ := h
      have hi3 : i ≤ 3 := by omega
      have hj3 : j ≤ 3 := by omega
      interval_cases i <;> interval_cases j <;> first | rfl | (exfalso; omega)
    · rw [if_neg h]
      unfold ArDispatch
      repeat' split
      all_goals first | rfl | (exfalso; omega)
  unfold getAr
  rw [key]
  split
  · simp [Agenxy_is_Lambda]
  · simp

/-- The hypotheses of `getAr_total` are trivial; this shows both outcomes occur. -/
example (T ρ : ℝ) : getAr 1 2 (fun T ρ => ρ ^ 2 / T) T ρ =
    .ok (Lambda (fun T ρ => ρ ^ 2 / T) 1 2 T ρ) ∧
    getAr 2 2 (fun T ρ => ρ ^ 2 / T) T ρ = .throws .stdInvalidArgument ∧
    getAr (-1) 0 (fun T ρ => ρ ^ 2 / T) T ρ = .throws .stdInvalidArgument := by
  simp [getAr_total]

/-- A worked instance of `Λ_ij`: for the one-term model `α = c ρ² / T` the reduced derivative
`Λ_11` is `2 α` - so the specification is not degenerate. -/
example (c T ρ : ℝ) (hT : T ≠ 0) :
    Lambda (fun T ρ => c * ρ ^ 2 / T) 1 1 T ρ = 2 * (c * ρ ^ 2 / T) := by
  unfold Lambda
  have h1 : ∀ t : ℝ, iteratedDeriv 1 (fun r : ℝ => c * r ^ 2 / (1 / t)) ρ = t * (2 * c * ρ) := by
    intro t
    rw [iteratedDeriv_one]
    have : HasDerivAt (fun r : ℝ => c * r ^ 2 / (1 / t)) (t * (2 * c * ρ)) ρ := by
      have h := ((hasDerivAt_pow 2 ρ).const_mul c).div_const (1 / t)
      refine h.congr_deriv ?_
      rw [div_div_eq_mul_div]; norm_num; ring
    exact this.deriv
  simp_rw [h1]
  rw [iteratedDeriv_one]
  have : HasDerivAt (fun t : ℝ => t * (2 * c * ρ)) (2 * c * ρ) (1 / T) := by
    simpa using (hasDerivAt_id (1 / T)).mul_const (2 * c * ρ)
  rw [this.deriv]
  field_simp

/-- C03. Entry `n` of the density-derivative array is `Λ_0n`; the array has `N+1` entries. -/
theorem Agen0n_is_Lambda (α : ℝ → ℝ → ℝ) (N : ℕ) (T ρ : ℝ) :
    (Agen0n α N T ρ).length = N + 1 ∧
    ∀ n, n ≤ N → (Agen0n α N T ρ)[n]? = some (Agenxy α 0 n T ρ) ∧
      Agenxy α 0 n T ρ = Lambda α 0 n T ρ := by
  refine ⟨by simp [Agen0n], fun n hn => ⟨?_, Agenxy_is_Lambda ..⟩⟩
  rw [Agenxy_is_Lambda]
  simp only [Agen0n, List.getElem?_map]
  rw [List.getElem?_range (by omega)]
  simp [Lambda, powiNat_eq]

/-- C03. Entry `n` of the temperature-derivative array is `Λ_n0`. -/
theorem Agenn0_is_Lambda (α : ℝ → ℝ → ℝ) (N : ℕ) (T ρ : ℝ) :
    (Agenn0 α N T ρ).length = N + 1 ∧
    ∀ n, n ≤ N → (Agenn0 α N T ρ)[n]? = some (Agenxy α n 0 T ρ) ∧
      Agenxy α n 0 T ρ = Lambda α n 0 T ρ := by
  refine ⟨by simp [Agenn0], fun n hn => ⟨?_, Agenxy_is_Lambda ..⟩⟩
  rw [Agenxy_is_Lambda]
  simp only [Agenn0, List.getElem?_map]
  rw [List.getElem?_range (by omega)]
  simp [Lambda, powiNat_eq]

/-- C03. Entry 0 of both arrays is `α` itself. -/
theorem Agen_zero (α : ℝ → ℝ → ℝ) (N : ℕ) (T ρ : ℝ) :
    (Agen0n α N T ρ)[0]? = some (α T ρ) ∧ (Agenn0 α N T ρ)[0]? = some (α T ρ) := by
  constructor
  · rw [((Agen0n_is_Lambda α N T ρ).2 0 (by omega)).1]; simp [Agenxy]
  · rw [((Agenn0_is_Lambda α N T ρ).2 0 (by omega)).1]; simp [Agenxy]

/-- C03. The 3x3 derivative holder used by the property iterator contains `Λ_ij` in each of the
entries it initialises, and it initialises exactly the entries with `i + j ≤ 2`. -/
theorem derivativeHolder_exact (α : ℝ → ℝ → ℝ) (T ρ : ℝ) (i j : ℕ) :
    derivativeHolderSquare2 α T ρ i j =
      if i + j ≤ 2 then some (Lambda α i j T ρ) else none := by
  have a := fun n hn => ((Agen0n_is_Lambda α 2 T ρ).2 n hn)
  have b := fun n hn => ((Agenn0_is_Lambda α 2 T ρ).2 n hn)
  by_cases h : i + j ≤ 2
  · rw [if_pos h]
    have hi : i ≤ 2 := by omega
    have hj : j ≤ 2 := by omega
    unfold derivativeHolderSquare2
    interval_cases i <;> interval_cases j <;>
      first
      | (exfalso; omega)
      | (simp only []; rw [(b 0 (by omega)).1, (b 0 (by omega)).2])
      | (simp only []; rw [(a 1 (by omega)).1, (a 1 (by omega)).2])
      | (simp only []; rw [(a 2 (by omega)).1, (a 2 (by omega)).2])
      | (simp only []; rw [(b 1 (by omega)).1, (b 1 (by omega)).2])
      | (simp only []; rw [(b 2 (by omega)).1, (b 2 (by omega)).2])
      | (simp only []; rw [Agenxy_is_Lambda])
  · rw [if_neg h]
    unfold derivativeHolderSquare2
    simp only []
    split <;> first | rfl | (exfalso; omega)

example : derivativeHolderSquare2 (fun T ρ => ρ / T) 2 3 1 2 = none := by
  rw [derivativeHolder_exact]; norm_num

end Teqp.Props

import Verif.Model.Reducing
import Mathlib.Tactic.Ring
import Mathlib.Tactic.FieldSimp
import Mathlib.Tactic.Linarith
import Mathlib.Topology.Algebra.Order.Field
import Mathlib.Analysis.SpecialFunctions.Pow.NNReal

/-! # Lemmas on the reducing functions -/

set_option autoImplicit false

namespace Teqp.Lemmas.Red
open Teqp.Model

theorem cbrt_cube (x : ℝ) : cbrt x ^ 3 = x := by
  have h : (|x| ^ (1 / 3 : ℝ)) ^ 3 = |x| := by
    rw [← Real.rpow_natCast, ← Real.rpow_mul (abs_nonneg x)]; norm_num
  unfold cbrt
  rw [mul_pow, h]
  rcases lt_trichotomy x 0 with hx | hx | hx
  · simp [sign_neg hx, abs_of_neg hx]; ring
  · simp [hx]
  · simp [sign_pos hx, abs_of_pos hx]

theorem cbrt_zero : cbrt 0 = 0 := by simp [cbrt]

theorem cbrt_pos {x : ℝ} (hx : 0 < x) : 0 < cbrt x := by
  unfold cbrt
  rw [sign_pos hx, abs_of_pos hx]
  simpa using Real.rpow_pos_of_pos hx _

/-- Half a symmetric double sum does not depend on the order of the indices. -/
theorem upper_sum_perm {n : ℕ} (t : Fin n → Fin n → ℝ) (ht : ∀ i j, i ≠ j → t i j = t j i)
    (σ : Equiv.Perm (Fin n)) :
    ∑ i, ∑ j ∈ Finset.univ.filter (i < ·), t (σ i) (σ j)
      = ∑ i, ∑ j ∈ Finset.univ.filter (i < ·), t i j := by
  have key : ∀ u : Fin n → Fin n → ℝ, (∀ i j, i ≠ j → u i j = u j i) →
      2 * ∑ i, ∑ j ∈ Finset.univ.filter (i < ·), u i j
        = ∑ i, ∑ j, (if i = j then 0 else u i j) := by
    intro u hu
    have h1 : ∀ i, ∑ j, (if i = j then 0 else u i j)
        = ∑ j ∈ Finset.univ.filter (i < ·), u i j + ∑ j ∈ Finset.univ.filter (· < i), u i j := by
      intro i
      rw [Finset.sum_filter, Finset.sum_filter, ← Finset.sum_add_distrib]
      refine Finset.sum_congr rfl fun j _ => ?_
      rcases lt_trichotomy i j with h | h | h
      · simp [h, h.ne, not_lt.mpr h.le]
      · simp [h]
      · simp [h, h.ne', not_lt.mpr h.le]
    have h2 : ∑ i, ∑ j ∈ Finset.univ.filter (· < i), u i j
        = ∑ i, ∑ j ∈ Finset.univ.filter (i < ·), u i j := by
      simp only [Finset.sum_filter]
      rw [Finset.sum_comm]
      refine Finset.sum_congr rfl fun i _ => Finset.sum_congr rfl fun j _ => ?_
      by_cases h : i < j
      · rw [if_pos h, if_pos h, hu j i h.ne']
      · rw [if_neg h, if_neg h]
    simp only [h1, Finset.sum_add_distrib, h2]
    ring
  have e1 := key (fun i j => t (σ i) (σ j)) fun i j h => ht _ _ (σ.injective.ne h)
  have e2 := key t ht
  have e3 : ∑ i, ∑ j, (if i = j then 0 else t (σ i) (σ j)) = ∑ i, ∑ j, (if i = j then 0 else t i j) := by
    rw [← Equiv.sum_comp σ (fun i => ∑ j, (if i = j then 0 else t i j))]
    refine Finset.sum_congr rfl fun i _ => ?_
    rw [← Equiv.sum_comp σ (fun j => if σ i = j then 0 else t (σ i) j)]
    refine Finset.sum_congr rfl fun j _ => ?_
    simp
  linarith

/-- The two orders of a pair give the same term. -/
theorem redTerm_swap (zi zj b g s : ℝ) (hb : 0 < b) (hi : 0 ≤ zi) (hj : 0 ≤ zj) :
    redTerm zi zj b (b * g * s) = redTerm zj zi (1 / b) (1 / b * g * s) := by
  unfold redTerm
  have hb2 : 0 < b * b := mul_pos hb hb
  by_cases h : b * b * zi + zj = 0
  · have hz : b * b * zi = 0 ∧ zj = 0 := by
      constructor <;> nlinarith [mul_nonneg hb2.le hi]
    have hzi : zi = 0 := by
      rcases mul_eq_zero.mp hz.1 with h | h
      · exact absurd h hb2.ne'
      · exact h
    simp [hzi, hz.2]
  · have h' : 1 / b * (1 / b) * zj + zi ≠ 0 := by
      intro h0
      apply h
      have : 1 / b * (1 / b) * zj + zi = (b * b * zi + zj) / (b * b) := by field_simp; ring
      rw [this, div_eq_zero_iff] at h0
      rcases h0 with h0 | h0
      · exact h0
      · exact absurd h0 hb2.ne'
    rw [if_pos h, if_pos h']
    have e : 1 / b * (1 / b) * zj + zi = (b * b * zi + zj) / (b * b) := by field_simp; ring
    rw [e]
    generalize b * b * zi + zj = D at *
    field_simp
    ring

theorem redTerm_nonneg (zi zj b Y : ℝ) (hb : 0 < b) (hi : 0 ≤ zi) (hj : 0 ≤ zj) (hY : 0 ≤ Y) :
    0 ≤ redTerm zi zj b Y := by
  unfold redTerm
  have hb2 : 0 < b * b := mul_pos hb hb
  by_cases h : b * b * zi + zj = 0
  · have hz : b * b * zi = 0 ∧ zj = 0 := by
      constructor <;> nlinarith [mul_nonneg hb2.le hi]
    have hzi : zi = 0 := by
      rcases mul_eq_zero.mp hz.1 with h | h
      · exact absurd h hb2.ne'
      · exact h
    rw [if_neg (not_not.mpr h)]
    simp [hzi, hz.2]
  · rw [if_pos h]
    positivity

/-- The term is bounded by a multiple of `zi * zj`. -/
theorem redTerm_le (zi zj b Y : ℝ) (hb : 0 < b) (hi : 0 ≤ zi) (hj : 0 ≤ zj) :
    |redTerm zi zj b Y| ≤ (1 + 1 / (b * b)) * |Y| * (zi * zj) := by
  unfold redTerm
  have hb2 : 0 < b * b := mul_pos hb hb
  by_cases h : b * b * zi + zj = 0
  · have hz : b * b * zi = 0 ∧ zj = 0 := by
      constructor <;> nlinarith [mul_nonneg hb2.le hi]
    have hzi : zi = 0 := by
      rcases mul_eq_zero.mp hz.1 with h | h
      · exact absurd h hb2.ne'
      · exact h
    rw [if_neg (not_not.mpr h)]
    simp [hzi, hz.2]
  · rw [if_pos h, abs_mul]
    have hD : 0 < b * b * zi + zj := lt_of_le_of_ne (by positivity) (Ne.symm h)
    have h1 : zi * zj * (zi + zj) / (b * b * zi + zj) ≤ (1 + 1 / (b * b)) * (zi * zj) := by
      rw [div_le_iff₀ hD]
      have : zi + zj ≤ (1 + 1 / (b * b)) * (b * b * zi + zj) := by
        have : (1 + 1 / (b * b)) * (b * b * zi + zj) = zi + zj + (b * b * zi + zj / (b * b)) := by
          field_simp; ring
        rw [this]
        have : 0 ≤ b * b * zi + zj / (b * b) := by positivity
        linarith
      calc zi * zj * (zi + zj) ≤ zi * zj * ((1 + 1 / (b * b)) * (b * b * zi + zj)) :=
            mul_le_mul_of_nonneg_left this (by positivity)
        _ = _ := by ring
    rw [abs_of_nonneg (by positivity : 0 ≤ zi * zj * (zi + zj) / (b * b * zi + zj))]
    calc _ ≤ (1 + 1 / (b * b)) * (zi * zj) * |Y| := mul_le_mul_of_nonneg_right h1 (abs_nonneg Y)
      _ = _ := by ring

end Teqp.Lemmas.Red

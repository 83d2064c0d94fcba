import Verif.Model.PCSAFT
import Verif.Spec.Residual
import Mathlib.Analysis.Calculus.ContDiff.Operations
import Mathlib.Analysis.SpecialFunctions.Log.Deriv
import Mathlib.Tactic.FieldSimp
import Mathlib.Tactic.Ring
import Mathlib.Tactic.Linarith

/-! # The pure-fluid PC-SAFT equation of the code is the one of Gross and Sadowski -/

set_option autoImplicit false

namespace Teqp.Model
open Teqp.Spec
open scoped ContDiff

/-- The branch for zero density, for one diameter. -/
theorem hsZero_one (k d r : ℝ) :
    hsZero (k * d ^ 0) (k * d ^ 1) (k * d ^ 2) (k * d ^ 3) (r * (k * d ^ 2)) (r * (k * d ^ 3))
      = (4 * (r * (k * d ^ 3)) - 3 * (r * (k * d ^ 3)) ^ 2) / (1 - r * (k * d ^ 3)) ^ 2 := by
  unfold hsZero
  by_cases hk : k = 0
  · subst hk; simp
  by_cases hd : d = 0
  · subst hd; simp
  have hc : k * d ^ 2 * (k * d ^ 2) * (k * d ^ 2) / (k * d ^ 3 * (k * d ^ 3) * (k * d ^ 0)) = 1 := by field_simp
  rw [hc]
  simp only
  generalize hU : 1 - r * (k * d ^ 3) = U
  by_cases hu : U = 0
  · subst hu; simp
  have hr : r = (1 - U) / (k * d ^ 3) := by rw [← hU]; field_simp; ring
  rw [hr]
  field_simp
  ring

/-- The ordinary branch, for one diameter. -/
theorem hsOrd_one (k d r : ℝ) (h : r * (k * d ^ 0) ≠ 0) :
    (3 * (r * (k * d ^ 1)) * (r * (k * d ^ 2)) / (1 - r * (k * d ^ 3)) + r * (k * d ^ 2) * (r * (k * d ^ 2)) * (r * (k * d ^ 2)) /
        (r * (k * d ^ 3) * ((1 - r * (k * d ^ 3)) * (1 - r * (k * d ^ 3)))) +
      (r * (k * d ^ 2) * (r * (k * d ^ 2)) * (r * (k * d ^ 2)) / (r * (k * d ^ 3) * (r * (k * d ^ 3))) - r * (k * d ^ 0)) *
        Real.log (1 - r * (k * d ^ 3))) / (r * (k * d ^ 0))
      = (4 * (r * (k * d ^ 3)) - 3 * (r * (k * d ^ 3)) ^ 2) / (1 - r * (k * d ^ 3)) ^ 2 := by
  have hr : r ≠ 0 := left_ne_zero_of_mul h
  have hk : k ≠ 0 := left_ne_zero_of_mul (right_ne_zero_of_mul h)
  by_cases hd : d = 0
  · subst hd; simp
  have hc : r * (k * d ^ 2) * (r * (k * d ^ 2)) * (r * (k * d ^ 2)) / (r * (k * d ^ 3) * (r * (k * d ^ 3))) - r * (k * d ^ 0) = 0 := by
    field_simp; ring
  rw [hc, zero_mul, add_zero]
  generalize hU : 1 - r * (k * d ^ 3) = U
  by_cases hu : U = 0
  · subst hu; simp
  have hr' : k = (1 - U) / (r * d ^ 3) := by rw [← hU]; field_simp; ring
  have hU1 : 1 - U ≠ 0 := by rw [← hU]; simp; exact ⟨hr, hk, hd⟩
  rw [hr']
  field_simp
  ring

/-- The contact value, for one diameter. -/
theorem contact_one (k d r : ℝ) :
    1 / (1 - r * (k * d ^ 3)) + d / 2 * 3 * (r * (k * d ^ 2)) / ((1 - r * (k * d ^ 3)) * (1 - r * (k * d ^ 3))) +
        d / 2 * (d / 2) * 2 * (r * (k * d ^ 2) * (r * (k * d ^ 2))) / ((1 - r * (k * d ^ 3)) * ((1 - r * (k * d ^ 3)) * (1 - r * (k * d ^ 3))))
      = (1 - r * (k * d ^ 3) / 2) / (1 - r * (k * d ^ 3)) ^ 3 := by
  generalize hU : 1 - r * (k * d ^ 3) = U
  by_cases hu : U = 0
  · subst hu; simp
  have hr : r * (k * d ^ 3) = 1 - U := by linarith
  field_simp
  linear_combination (r * (k * d ^ 3) + 2 + 2 * U) * hr

theorem pure_disp (m sigma eps T r : ℝ) :
    (pureEval m sigma eps T r).disp =
      let η := Real.pi / 6 * r * m * (sigma * (1 - 0.12 * Real.exp (-3 * eps / T))) ^ 3
      let I := fun k0 k1 k2 : Fin 6 => ∑ i : Fin 7, (pureCoeff i k0 + (m - 1) / m * pureCoeff i k1 + (m - 1) / m * ((m - 2) / m) * pureCoeff i k2) * η ^ (i : ℕ)
      let C := 1 + m * (8 * η - 2 * η ^ 2) / (1 - η) ^ 4 + (1 - m) * (20 * η - 27 * η ^ 2 + 12 * η ^ 3 - 2 * η ^ 4) / ((1 - η) * (2 - η)) ^ 2
      0 - 2 * Real.pi * r * I 0 1 2 * m ^ 2 * (eps / T) * sigma ^ 3 - Real.pi * r * m * C⁻¹ * I 3 4 5 * m ^ 2 * (eps / T) ^ 2 * sigma ^ 3 := by
  have hη : r * (Real.pi / 6 * m * (sigma * (1 - 0.12 * Real.exp (-3 * eps / T))) ^ 3) =
      Real.pi / 6 * r * m * (sigma * (1 - 0.12 * Real.exp (-3 * eps / T))) ^ 3 := by ring
  simp only [pureEval, hη]
  generalize Real.pi / 6 * r * m * (sigma * (1 - 0.12 * Real.exp (-3 * eps / T))) ^ 3 = η
  have hI : ∀ k0 k1 k2 : Fin 6, (∑ n : Fin 7, pureIm m k0 k1 k2 n * η ^ (n : ℕ)) =
      ∑ i : Fin 7, (pureCoeff i k0 + (m - 1) / m * pureCoeff i k1 + (m - 1) / m * ((m - 2) / m) * pureCoeff i k2) * η ^ (i : ℕ) := by
    intro k0 k1 k2
    refine Finset.sum_congr rfl fun i _ => ?_
    unfold pureIm
    ring
  rw [hI, hI]
  have hC : 1 + m * (8 * η - 2 * (η * η)) / ((1 - η) * ((1 - η) * ((1 - η) * (1 - η)))) +
      (1 - m) * (20 * η - 27 * (η * η) + 12 * (η * η * η) - 2 * (η * η * (η * η))) / ((1 - η) * (1 - η)) / ((2 - η) * (2 - η)) =
      1 + m * (8 * η - 2 * η ^ 2) / (1 - η) ^ 4 + (1 - m) * (20 * η - 27 * η ^ 2 + 12 * η ^ 3 - 2 * η ^ 4) / ((1 - η) * (2 - η)) ^ 2 := by
    rw [div_div, show (1 - η) * (1 - η) * ((2 - η) * (2 - η)) = ((1 - η) * (2 - η)) ^ 2 by ring,
      show (1 - η) * ((1 - η) * ((1 - η) * (1 - η))) = (1 - η) ^ 4 by ring, show η * η * (η * η) = η ^ 4 by ring, show η * η * η = η ^ 3 by ring,
      show η * η = η ^ 2 by ring]
  rw [hC]
  generalize (1 + m * (8 * η - 2 * η ^ 2) / (1 - η) ^ 4 + (1 - m) * (20 * η - 27 * η ^ 2 + 12 * η ^ 3 - 2 * η ^ 4) / ((1 - η) * (2 - η)) ^ 2) = C
  generalize (∑ i : Fin 7, (pureCoeff i 0 + (m - 1) / m * pureCoeff i 1 + (m - 1) / m * ((m - 2) / m) * pureCoeff i 2) * η ^ (i : ℕ)) = I1
  generalize (∑ i : Fin 7, (pureCoeff i 3 + (m - 1) / m * pureCoeff i 4 + (m - 1) / m * ((m - 2) / m) * pureCoeff i 5) * η ^ (i : ℕ)) = I2
  simp only [div_eq_mul_inv, mul_inv]
  ring

theorem pureZero_gs (m sigma eps T r : ℝ) : pureEvalZero m sigma eps T r = grossSadowski pureCoeff m sigma eps T r := by
  unfold pureEvalZero
  rw [pure_disp]
  simp only [hsZero_one, contact_one, grossSadowski]
  have hη : r * (Real.pi / 6 * m * (sigma * (1 - 0.12 * Real.exp (-3 * eps / T))) ^ 3) =
      Real.pi / 6 * r * m * (sigma * (1 - 0.12 * Real.exp (-3 * eps / T))) ^ 3 := by ring
  rw [hη]
  ring

theorem pure_gs (m sigma eps T r : ℝ) : (pureEval m sigma eps T r).hc + (pureEval m sigma eps T r).disp = grossSadowski pureCoeff m sigma eps T r := by
  rw [← pureZero_gs]
  unfold pureEvalZero
  rw [add_left_inj]
  unfold pureEval
  simp only
  split_ifs with h
  · rfl
  · rw [hsOrd_one _ _ _ h, hsZero_one]

/-- The equation is smooth at density zero. -/
theorem grossSadowski_contDiffAt (c : Fin 7 → Fin 6 → ℝ) (m σ ε T s : ℝ) : ContDiffAt ℝ ∞ (fun δ => grossSadowski c m σ ε T (δ * s)) 0 := by
  unfold grossSadowski
  simp only
  generalize σ * (1 - 0.12 * Real.exp (-3 * ε / T)) = d
  have hη : ContDiffAt ℝ ∞ (fun δ : ℝ => Real.pi / 6 * (δ * s) * m * d ^ 3) 0 := ContDiff.contDiffAt (by fun_prop)
  have hη0 : Real.pi / 6 * ((0 : ℝ) * s) * m * d ^ 3 = 0 := by ring
  have h1 : ContDiffAt ℝ ∞ (fun δ : ℝ => 1 - Real.pi / 6 * (δ * s) * m * d ^ 3) 0 := contDiffAt_const.sub hη
  have h2 : ContDiffAt ℝ ∞ (fun δ : ℝ => 2 - Real.pi / 6 * (δ * s) * m * d ^ 3) 0 := contDiffAt_const.sub hη
  have hI : ∀ k0 k1 k2 : Fin 6, ContDiffAt ℝ ∞ (fun δ : ℝ => ∑ i : Fin 7, (c i k0 + (m - 1) / m * c i k1 + (m - 1) / m * ((m - 2) / m) * c i k2) *
      (Real.pi / 6 * (δ * s) * m * d ^ 3) ^ (i : ℕ)) 0 := fun k0 k1 k2 => ContDiffAt.sum fun i _ => contDiffAt_const.mul (hη.pow _)
  have hρ : ContDiffAt ℝ ∞ (fun δ : ℝ => δ * s) 0 := ContDiff.contDiffAt (by fun_prop)
  have hhs : ContDiffAt ℝ ∞ (fun δ : ℝ => (4 * (Real.pi / 6 * (δ * s) * m * d ^ 3) - 3 * (Real.pi / 6 * (δ * s) * m * d ^ 3) ^ 2) /
      (1 - Real.pi / 6 * (δ * s) * m * d ^ 3) ^ 2) 0 :=
    ((contDiffAt_const.mul hη).sub (contDiffAt_const.mul (hη.pow 2))).div (h1.pow 2) (by simp)
  have hg : ContDiffAt ℝ ∞ (fun δ : ℝ => Real.log ((1 - (Real.pi / 6 * (δ * s) * m * d ^ 3) / 2) / (1 - Real.pi / 6 * (δ * s) * m * d ^ 3) ^ 3)) 0 :=
    ((contDiffAt_const.sub (hη.div_const 2)).div (h1.pow 3) (by simp)).log (by simp)
  have hC : ContDiffAt ℝ ∞ (fun δ : ℝ => (1 + m * (8 * (Real.pi / 6 * (δ * s) * m * d ^ 3) - 2 * (Real.pi / 6 * (δ * s) * m * d ^ 3) ^ 2) /
      (1 - Real.pi / 6 * (δ * s) * m * d ^ 3) ^ 4 + (1 - m) * (20 * (Real.pi / 6 * (δ * s) * m * d ^ 3) - 27 * (Real.pi / 6 * (δ * s) * m * d ^ 3) ^ 2
      + 12 * (Real.pi / 6 * (δ * s) * m * d ^ 3) ^ 3 - 2 * (Real.pi / 6 * (δ * s) * m * d ^ 3) ^ 4) /
      ((1 - Real.pi / 6 * (δ * s) * m * d ^ 3) * (2 - Real.pi / 6 * (δ * s) * m * d ^ 3)) ^ 2)⁻¹) 0 := by
    refine ContDiffAt.inv ?_ (by simp)
    refine (contDiffAt_const.add ((contDiffAt_const.mul ((contDiffAt_const.mul hη).sub (contDiffAt_const.mul (hη.pow 2)))).div (h1.pow 4) (by simp))).add
      ((contDiffAt_const.mul ((((contDiffAt_const.mul hη).sub (contDiffAt_const.mul (hη.pow 2))).add (contDiffAt_const.mul (hη.pow 3))).sub
        (contDiffAt_const.mul (hη.pow 4)))).div ((h1.mul h2).pow 2) (by simp))
  refine (((contDiffAt_const.mul hhs).sub (contDiffAt_const.mul hg)).sub ?_).sub ?_
  · exact ((((contDiffAt_const.mul hρ).mul (hI 0 1 2)).mul contDiffAt_const).mul contDiffAt_const).mul contDiffAt_const
  · exact (((((((contDiffAt_const.mul hρ).mul contDiffAt_const).mul hC).mul (hI 3 4 5)).mul contDiffAt_const).mul contDiffAt_const)).mul contDiffAt_const

end Teqp.Model

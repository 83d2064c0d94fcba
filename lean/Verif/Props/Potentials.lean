import Verif.Model.Potentials
import Mathlib.Analysis.Calculus.Deriv.Pow
import Mathlib.Analysis.Calculus.Deriv.Add
import Mathlib.Analysis.Calculus.Deriv.Mul
import Mathlib.Tactic

/-! # The exp-6 fluid of Kataoka (C97) -/

set_option autoImplicit false

namespace Teqp.Props
open Finset Teqp.Model

/-- The steepness is given back. -/
theorem kataoka_get (alpha : ℝ) : kataokaGet alpha = alpha := by unfold kataokaGet kataokaStar; ring

/-- **The table is the full grid** of the densities `1..5`, steepness exponents `-1/2, 0, 3/2` and temperature exponents `0, 1/4, 1, 2, 3`, each combination once. -/
theorem kataoka_grid : kataokaTab.map (fun e => (e.p, e.r, e.q)) =
    [1, 2, 3, 4, 5].flatMap fun p : ℕ => [(-1/2 : ℝ), 0, 3/2].flatMap fun r => [(0 : ℝ), 1/4, 1, 2, 3].map fun q => (p, r, q) := by
  simp only [kataokaTab, List.map, List.flatMap_cons, List.flatMap_nil, List.cons_append, List.nil_append]
  norm_num

/-- The coefficient of a power of the density. -/
noncomputable def kataokaCoef (alpha T : ℝ) (p : ℕ) : ℝ :=
  ((kataokaTab.filter fun e => e.p = p).map fun e => e.A * T ^ (-e.q) * kataokaStar alpha ^ e.r).sum

theorem kataoka_rows (g : KataokaRow → ℝ) (rho : ℝ) (l : List KataokaRow) (hl : ∀ e ∈ l, e.p ∈ Icc 1 5) :
    (l.map fun e => g e * rho ^ e.p).sum = ∑ p ∈ Icc 1 5, ((l.filter fun e => e.p = p).map g).sum * rho ^ p := by
  induction l with
  | nil => simp
  | cons e l ih =>
    rw [List.map_cons, List.sum_cons, ih fun e he => hl e (List.mem_cons_of_mem _ he)]
    have : ∀ p ∈ Icc 1 5, (((e :: l).filter fun e => e.p = p).map g).sum * rho ^ p
        = (if e.p = p then g e * rho ^ p else 0) + ((l.filter fun e => e.p = p).map g).sum * rho ^ p := by
      intro p _
      by_cases h : e.p = p <;> simp [h, add_mul]
    rw [sum_congr rfl this, sum_add_distrib, sum_ite_eq, if_pos (hl e List.mem_cons_self)]

theorem kataoka_range : ∀ e ∈ kataokaTab, e.p ∈ Icc 1 5 := by
  simp [kataokaTab]

/-- **A polynomial of the fifth degree in the density without constant term**, for every steepness above eight and every positive temperature. -/
theorem kataoka_poly (alpha T rho : ℝ) (ha : 8 < alpha) (hT : 0 < T) :
    kataokaAlphar alpha T rho = .ok (∑ p ∈ Icc 1 5, kataokaCoef alpha T p * rho ^ p) := by
  have hs : ¬ (kataokaStar alpha ≤ 0 ∨ T ≤ 0) := by
    unfold kataokaStar
    rintro (h | h) <;> linarith
  rw [kataokaAlphar, if_neg hs]
  unfold kataokaCoef
  rw [← kataoka_rows _ _ _ kataoka_range]
  congr 3
  funext e
  ring

/-- **A steepness of eight or less is accepted, and no value is finite.** -/
theorem kataoka_nonFinite (alpha T rho : ℝ) (ha : alpha ≤ 8) : kataokaAlphar alpha T rho = .nonFinite := by
  rw [kataokaAlphar, if_pos (Or.inl (by unfold kataokaStar; linarith))]

/-- The slope of the pressure with density over the temperature, `1 + 2 ρ α' + ρ² α''`, of a polynomial in the density. -/
theorem kataoka_slope (c : ℕ → ℝ) (rho : ℝ) :
    HasDerivAt (fun r => r * (1 + r * deriv (fun x => ∑ p ∈ Icc 1 5, c p * x ^ p) r)) (1 + ∑ p ∈ Icc 1 5, p * (p + 1) * c p * rho ^ p) rho := by
  have hd : ∀ r, deriv (fun x => ∑ p ∈ Icc 1 5, c p * x ^ p) r = ∑ p ∈ Icc 1 5, c p * (p * r ^ (p - 1)) := fun r =>
    (HasDerivAt.fun_sum fun p _ => (hasDerivAt_pow p r).const_mul (c p)).deriv
  have e : (fun r => r * (1 + r * deriv (fun x => ∑ p ∈ Icc 1 5, c p * x ^ p) r)) = fun r => r + ∑ p ∈ Icc 1 5, c p * p * r ^ (p + 1) := by
    funext r
    rw [hd, mul_add, mul_one, ← mul_assoc, mul_sum]
    congr 1
    refine sum_congr rfl fun p hp => ?_
    obtain ⟨q, rfl⟩ := Nat.exists_eq_succ_of_ne_zero (show p ≠ 0 by have := (mem_Icc.1 hp).1; omega)
    simp only [Nat.succ_sub_one, Nat.succ_eq_add_one]
    ring
  rw [e]
  refine ((hasDerivAt_id rho).add (HasDerivAt.fun_sum fun p _ => (hasDerivAt_pow (p + 1) rho).const_mul (c p * p))).congr_deriv ?_
  congr 1
  refine sum_congr rfl fun p _ => ?_
  rw [Nat.add_sub_cancel]
  push_cast
  ring

/-- The pressure `ρ T (1 + ρ ∂α/∂ρ)` the model gives. -/
noncomputable def kataokaPressure (alpha T rho : ℝ) : ℝ :=
  rho * T * (1 + rho * deriv (fun r => ((kataokaTab.map fun e => e.A * r ^ e.p * T ^ (-e.q) * kataokaStar alpha ^ e.r).sum)) rho)

theorem kataoka_pressure_slope (alpha T rho : ℝ) :
    HasDerivAt (kataokaPressure alpha T) (T * (1 + ∑ p ∈ Icc 1 5, p * (p + 1) * kataokaCoef alpha T p * rho ^ p)) rho := by
  have e : kataokaPressure alpha T = fun r => T * (r * (1 + r * deriv (fun x => ∑ p ∈ Icc 1 5, kataokaCoef alpha T p * x ^ p) r)) := by
    funext r
    unfold kataokaPressure
    have : (fun r => ((kataokaTab.map fun e => e.A * r ^ e.p * T ^ (-e.q) * kataokaStar alpha ^ e.r).sum))
        = fun x => ∑ p ∈ Icc 1 5, kataokaCoef alpha T p * x ^ p := by
      funext x
      unfold kataokaCoef
      rw [← kataoka_rows _ _ _ kataoka_range]
      congr 2
      funext e
      ring
    rw [this]
    ring
  rw [e]
  exact (kataoka_slope _ rho).const_mul T

theorem kataokaStar_18 : kataokaStar 18 = 1 := by unfold kataokaStar; norm_num

theorem rpow_16 : (16 : ℝ) ^ (-(0.25 : ℝ)) = 1 / 2 := by
  rw [show (16 : ℝ) = 2 ^ (4 : ℝ) by norm_num, ← Real.rpow_mul (by norm_num)]
  norm_num [Real.rpow_neg_one]

/-- The coefficients at unit temperature. -/
theorem kataoka_cold : kataokaCoef 18 1 1 = -(34818679/10000000) ∧ kataokaCoef 18 1 2 = -(1246257/2000000) ∧ kataokaCoef 18 1 3 = 10019953/2000000
    ∧ kataokaCoef 18 1 4 = -(72228241/10000000) ∧ kataokaCoef 18 1 5 = 10823333/2000000 := by
  refine ⟨?_, ?_, ?_, ?_, ?_⟩ <;> simp [kataokaCoef, kataokaTab, kataokaStar_18] <;> norm_num

/-- The coefficients at temperature sixteen. -/
theorem kataoka_hot : kataokaCoef 18 16 1 = 10320159241/8192000000 ∧ kataokaCoef 18 16 2 = 5326776337/10240000000 ∧ kataokaCoef 18 16 3 = 8563257099/10240000000
    ∧ kataokaCoef 18 16 4 = -(798062709/2560000000) ∧ kataokaCoef 18 16 5 = 5401026389/20480000000 := by
  refine ⟨?_, ?_, ?_, ?_, ?_⟩ <;> simp [kataokaCoef, kataokaTab, kataokaStar_18, rpow_16] <;> norm_num [rpow_16]

theorem kataoka_expand (c : ℕ → ℝ) (rho : ℝ) : ∑ p ∈ Icc 1 5, p * (p + 1) * c p * rho ^ p
    = 2 * c 1 * rho + 6 * c 2 * rho ^ 2 + 12 * c 3 * rho ^ 3 + 20 * c 4 * rho ^ 4 + 30 * c 5 * rho ^ 5 := by
  rw [show Icc 1 5 = ({1, 2, 3, 4, 5} : Finset ℕ) from rfl]
  simp
  ring

/-- **A loop below the critical temperature, none far above.**  For steepness eighteen, at `T* = 1` the pressure falls with density at `ρ* = 0.35`, and at
`T* = 16` it rises at every density from zero to one. -/
theorem kataoka_loop : deriv (kataokaPressure 18 1) 0.35 < 0 ∧ ∀ rho ∈ Set.Icc (0 : ℝ) 1, 0 < deriv (kataokaPressure 18 16) rho := by
  constructor
  · rw [(kataoka_pressure_slope 18 1 0.35).deriv, kataoka_expand]
    obtain ⟨h1, h2, h3, h4, h5⟩ := kataoka_cold
    rw [h1, h2, h3, h4, h5]
    norm_num
  · rintro rho ⟨h0, h1'⟩
    rw [(kataoka_pressure_slope 18 16 rho).deriv, kataoka_expand]
    obtain ⟨h1, h2, h3, h4, h5⟩ := kataoka_hot
    rw [h1, h2, h3, h4, h5]
    have e3 : 0 ≤ rho ^ 3 := by positivity
    have e4 : rho ^ 4 ≤ rho ^ 3 := pow_le_pow_of_le_one h0 h1' (by norm_num)
    have e5 : 0 ≤ rho ^ 5 := by positivity
    have e2 : 0 ≤ rho ^ 2 := by positivity
    nlinarith

/-- **The second virial coefficient** of the fluid with steepness eighteen: `−3.482` at `T* = 1` and `1.260` at `T* = 16`.  (Quadrature of the potential in units of its
zero gives `−3.88` and `1.21`: an equation fitted to the dense fluid.) -/
theorem kataoka_virial : |deriv (fun r => ((kataokaTab.map fun e => e.A * r ^ e.p * (1 : ℝ) ^ (-e.q) * kataokaStar 18 ^ e.r).sum)) 0 + 3.482| < 0.001
    ∧ |deriv (fun r => ((kataokaTab.map fun e => e.A * r ^ e.p * (16 : ℝ) ^ (-e.q) * kataokaStar 18 ^ e.r).sum)) 0 - 1.26| < 0.001 := by
  have key : ∀ T : ℝ, deriv (fun r => ((kataokaTab.map fun e => e.A * r ^ e.p * T ^ (-e.q) * kataokaStar 18 ^ e.r).sum)) 0 = kataokaCoef 18 T 1 := by
    intro T
    have e : (fun r => ((kataokaTab.map fun e => e.A * r ^ e.p * T ^ (-e.q) * kataokaStar 18 ^ e.r).sum))
        = fun x => ∑ p ∈ Icc 1 5, kataokaCoef 18 T p * x ^ p := by
      funext x
      unfold kataokaCoef
      rw [← kataoka_rows _ _ _ kataoka_range]
      congr 2
      funext e
      ring
    rw [e, (HasDerivAt.fun_sum fun p _ => (hasDerivAt_pow p (0 : ℝ)).const_mul (kataokaCoef 18 T p)).deriv,
      show Icc 1 5 = ({1, 2, 3, 4, 5} : Finset ℕ) from rfl]
    simp
  rw [key, key, kataoka_cold.1, kataoka_hot.1]
  norm_num [abs_lt]

/-- **The whole table in one number.**  The value at `T* = 1`, `ρ* = 1` for steepness eighteen, where every power is one. -/
theorem kataoka_total : kataokaAlphar 18 1 1 = .ok (-(362471/400000)) := by
  rw [kataoka_poly 18 1 1 (by norm_num) one_pos, show Icc 1 5 = ({1, 2, 3, 4, 5} : Finset ℕ) from rfl]
  obtain ⟨h1, h2, h3, h4, h5⟩ := kataoka_cold
  simp [h1, h2, h3, h4, h5]
  norm_num

example : kataokaGet 13.5 = 13.5 := kataoka_get 13.5
example : kataokaAlphar 18 1 0.5 ≠ .nonFinite := by rw [kataoka_poly 18 1 0.5 (by norm_num) one_pos]; exact nofun
example : kataokaAlphar 8 1 0.5 = .nonFinite := kataoka_nonFinite 8 1 0.5 le_rfl

end Teqp.Props

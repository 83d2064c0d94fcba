import Verif.Props.Ideal
import Mathlib.Analysis.Calculus.MeanValue

/-! # C21, C22: the Aly-Lee heat capacity, with its reference state and its cut-off

`CoolProp2teqp_alphaig_term_reformatter` (ideal_eosterms.hpp 434-465) turns an Aly-Lee heat capacity
into a constant heat capacity referred to `T0` and a generalised Planck-Einstein term which is not
referred to `T0`.  The value is given here for all coefficients, and compared with the Helmholtz energy
of the heat capacity referred to `T0`. -/

set_option autoImplicit false

namespace Teqp.Props
open Teqp.Model Teqp.Spec Teqp.Calc

/-- The CoolProp document of an Aly-Lee heat capacity. -/
noncomputable def alyLeeDoc (k0 k1 k2 k3 k4 T0 : ℝ) : JObj :=
  [("type", .str "IdealGasHelmholtzCP0AlyLee"), ("c", .arr [k0, k1, k2, k3, k4]), ("T0", .num T0)]

/-- The heat capacity of Aly and Lee, in units of `R`. -/
noncomputable def alyLeeCp (k0 k1 k2 k3 k4 T : ℝ) : ℝ :=
  k0 + k1 * (k2 / T / Real.sinh (k2 / T)) ^ 2 + k3 * (k4 / T / Real.cosh (k4 / T)) ^ 2

/-- A coefficient of magnitude up to `1e-14` is left out. -/
noncomputable def kept (k : ℝ) : ℝ := if |k| > 1e-14 then k else 0

/-- The vibrational part as CoolProp writes it, `k₁ ln(1 - e^{-2k₂/T}) - k₃ ln(1 + e^{-2k₄/T})`. -/
noncomputable def alyLeeVib (k1 k2 k3 k4 T : ℝ) : ℝ :=
  k1 * Real.log (1 - Real.exp (-(2 * k2) / T)) - k3 * Real.log (1 + Real.exp (-(2 * k4) / T))

/-- C21. The value of the converted Aly-Lee term, for all coefficients: the constant heat capacity
referred to `T0` and the two vibrational logarithms, without the coefficients under the cut-off. -/
theorem alyLee_value (k0 k1 k2 k3 k4 T0 Tr ρr R T ρ : ℝ) (hT0 : 0 < T0) (hT : 0 < T) :
    convertedValue (alyLeeDoc k0 k1 k2 k3 k4 T0) Tr ρr R T ρ
      = .ok (fromCp0 (fun _ => kept k0) T0 T + alyLeeVib (kept k1) k2 (kept k3) k4 T) := by
  have this : convertIdealTerm (alyLeeDoc k0 k1 k2 k3 k4 T0) Tr ρr R
      = .ok ((if |k0| > 1e-14 then
            [[("type", .str "Cp0Constant"), ("c", .num k0), ("T_0", .num T0), ("R", .num R)]]
          else []) ++ [[("type", .str "PlanckEinsteinGeneralized"),
          ("n", .arr (((if |k1| > 1e-14 then [(k1, (1 : ℝ), (-1 : ℝ), -2 * k2)] else []) ++
            (if |k3| > 1e-14 then [(-k3, (1 : ℝ), (1 : ℝ), -2 * k4)] else [])).map (·.1))),
          ("c", .arr (((if |k1| > 1e-14 then [(k1, (1 : ℝ), (-1 : ℝ), -2 * k2)] else []) ++
            (if |k3| > 1e-14 then [(-k3, (1 : ℝ), (1 : ℝ), -2 * k4)] else [])).map (·.2.1))),
          ("d", .arr (((if |k1| > 1e-14 then [(k1, (1 : ℝ), (-1 : ℝ), -2 * k2)] else []) ++
            (if |k3| > 1e-14 then [(-k3, (1 : ℝ), (1 : ℝ), -2 * k4)] else [])).map (·.2.2.1))),
          ("theta", .arr (((if |k1| > 1e-14 then [(k1, (1 : ℝ), (-1 : ℝ), -2 * k2)] else []) ++
            (if |k3| > 1e-14 then [(-k3, (1 : ℝ), (1 : ℝ), -2 * k4)] else [])).map (·.2.2.2))),
          ("R", .num R)]]) := rfl
  rw [const_integral _ T0 T hT0 hT]
  unfold convertedValue kept alyLeeVib
  rw [this]
  have e2 : -(2 * k2) / T = -2 * k2 / T := by ring
  have e4 : -(2 * k4) / T = -2 * k4 / T := by ring
  rw [e2, e4]
  by_cases h0 : |k0| > 1e-14 <;> by_cases h1 : |k1| > 1e-14 <;> by_cases h3 : |k3| > 1e-14 <;>
    simp only [h0, h1, h3, if_true, if_false]
  all_goals first
    | change Outcome.ok (_ + (_ + 0)) = _
    | change Outcome.ok (_ + 0) = _
  all_goals
    refine congrArg Outcome.ok ?_
    simp only [List.map_append, List.map_cons, List.map_nil, List.cons_append, List.nil_append,
      List.append_nil, List.zip_cons_cons, List.zip_nil_left, List.zipWith_cons_cons,
      List.zipWith_nil_left, List.sum_cons, List.sum_nil,
      neg_mul, one_mul, zero_mul, add_zero, zero_add, sub_eq_add_neg, neg_zero]

example : convertedValue (alyLeeDoc 4 2.5 800 1e-15 2200 298) 190 10000 8.314 300 5
    = .ok (fromCp0 (fun _ => 4) 298 300 + alyLeeVib 2.5 800 0 2200 300) := by
  have := alyLee_value 4 2.5 800 1e-15 2200 298 190 10000 8.314 300 5 (by norm_num) (by norm_num)
  rwa [show kept 4 = 4 from if_pos (by norm_num), show kept 2.5 = 2.5 from if_pos (by rw [abs_of_pos] <;> norm_num),
    show kept 1e-15 = 0 from if_neg (by rw [abs_of_pos] <;> norm_num)] at this

/-- The slope in `1/T` of the vibrational part. -/
noncomputable def vibSlope (k1 k2 k3 k4 T : ℝ) : ℝ :=
  k1 * (2 * k2) / (Real.exp (2 * k2 / T) - 1) + k3 * (2 * k4) / (Real.exp (2 * k4 / T) + 1)

theorem vib_deriv (k1 k2 k3 k4 β : ℝ) (h2 : 0 < k2) (hβ : 0 < β) :
    HasDerivAt (fun β => alyLeeVib k1 k2 k3 k4 (1 / β)) (vibSlope k1 k2 k3 k4 (1 / β)) β := by
  have ee : ∀ k b : ℝ, -(2 * k) / (1 / b) = -(2 * k * b) := fun k b => by
    rw [div_div_eq_mul_div, div_one]; ring
  have ep : ∀ k b : ℝ, (2 * k) / (1 / b) = (2 * k * b) := fun k b => by
    rw [div_div_eq_mul_div, div_one]
  have hE : ∀ k : ℝ, HasDerivAt (fun b : ℝ => Real.exp (-(2 * k * b)))
      (Real.exp (-(2 * k * β)) * (-(2 * k))) β := by
    intro k
    have := ((hasDerivAt_id β).const_mul (2 * k)).neg.exp
    simpa using this
  have hlt : Real.exp (-(2 * k2 * β)) < 1 :=
    Real.exp_lt_one_iff.mpr (by have := mul_pos h2 hβ; linarith)
  have d1 := ((hE k2).const_sub 1).log (by linarith)
  have d2 := ((hE k4).const_add 1).log (by positivity)
  have d := (d1.const_mul k1).sub (d2.const_mul k3)
  unfold alyLeeVib vibSlope
  simp only [ee, ep]
  refine d.congr_deriv ?_
  have x2 : Real.exp (2 * k2 * β) = 1 / Real.exp (-(2 * k2 * β)) := by
    rw [Real.exp_neg, one_div, inv_inv]
  have x4 : Real.exp (2 * k4 * β) = 1 / Real.exp (-(2 * k4 * β)) := by
    rw [Real.exp_neg, one_div, inv_inv]
  rw [x2, x4]
  have p2 := Real.exp_pos (-(2 * k2 * β))
  have p4 := Real.exp_pos (-(2 * k4 * β))
  generalize Real.exp (-(2 * k2 * β)) = E at *
  generalize Real.exp (-(2 * k4 * β)) = F at *
  have n1 : 1 - E ≠ 0 := by linarith
  have n2 : 1 + F ≠ 0 := by positivity
  have q1 : 1 / E - 1 = (1 - E) / E := by field_simp
  have q2 : 1 / F + 1 = (1 + F) / F := by field_simp
  rw [q1, q2]
  field_simp
  ring

theorem vibSlope_deriv (k1 k2 k3 k4 β : ℝ) (h2 : 0 < k2) (hβ : 0 < β) :
    HasDerivAt (fun β => vibSlope k1 k2 k3 k4 (1 / β)) (-alyLeeCp 0 k1 k2 k3 k4 (1 / β) / β ^ 2) β := by
  have ep : ∀ k b : ℝ, (2 * k) / (1 / b) = (2 * k * b) := fun k b => by
    rw [div_div_eq_mul_div, div_one]
  have e1 : ∀ k b : ℝ, k / (1 / b) = k * b := fun k b => by
    rw [div_div_eq_mul_div, div_one]
  have hE : ∀ k : ℝ, HasDerivAt (fun b : ℝ => Real.exp (2 * k * b))
      (Real.exp (2 * k * β) * (2 * k)) β := by
    intro k
    have := ((hasDerivAt_id β).const_mul (2 * k)).exp
    simpa using this
  have hgt : 1 < Real.exp (2 * k2 * β) := Real.one_lt_exp_iff.mpr (by positivity)
  have d1 := ((hasDerivAt_const β (k1 * (2 * k2))).div ((hE k2).sub_const 1) (by linarith))
  have d2 := ((hasDerivAt_const β (k3 * (2 * k4))).div ((hE k4).add_const 1) (by positivity))
  have d := d1.add d2
  unfold vibSlope alyLeeCp
  simp only [ep, e1]
  refine d.congr_deriv ?_
  have s2 : ∀ u : ℝ, Real.exp (2 * u) = Real.exp u ^ 2 := fun u => by
    rw [← Real.exp_nat_mul]; norm_num
  have sn : ∀ u : ℝ, Real.exp (-u) = 1 / Real.exp u := fun u => by rw [Real.exp_neg, one_div]
  have hsh : 0 < Real.sinh (k2 * β) := Real.sinh_pos_iff.mpr (by positivity)
  have hch := Real.cosh_pos (k4 * β)
  have g1 : Real.exp (2 * k2 * β) - 1 = 2 * Real.exp (k2 * β) * Real.sinh (k2 * β) := by
    rw [mul_assoc, s2, Real.sinh_eq, sn]
    have := Real.exp_pos (k2 * β)
    field_simp
  have g2 : Real.exp (2 * k4 * β) + 1 = 2 * Real.exp (k4 * β) * Real.cosh (k4 * β) := by
    rw [mul_assoc, s2, Real.cosh_eq, sn]
    have := Real.exp_pos (k4 * β)
    field_simp
  rw [g1, g2, mul_assoc 2 k2, mul_assoc 2 k4, s2, s2]
  have p2 := Real.exp_pos (k2 * β)
  have p4 := Real.exp_pos (k4 * β)
  generalize Real.exp (k2 * β) = E at *
  generalize Real.exp (k4 * β) = F at *
  generalize Real.sinh (k2 * β) = S at *
  generalize Real.cosh (k4 * β) = C at *
  field_simp
  ring

theorem alyLeeCp_continuousOn (k0 k1 k2 k3 k4 : ℝ) (h2 : 0 < k2) :
    ContinuousOn (alyLeeCp k0 k1 k2 k3 k4) (Set.Ioi 0) := by
  intro T hT
  have hT : 0 < T := hT
  have hsh : Real.sinh (k2 / T) ≠ 0 := (Real.sinh_pos_iff.mpr (by positivity)).ne'
  have hch : Real.cosh (k4 / T) ≠ 0 := (Real.cosh_pos _).ne'
  apply ContinuousAt.continuousWithinAt
  unfold alyLeeCp
  have c2 : ContinuousAt (fun T : ℝ => k2 / T) T := continuousAt_const.div continuousAt_id hT.ne'
  have c4 : ContinuousAt (fun T : ℝ => k4 / T) T := continuousAt_const.div continuousAt_id hT.ne'
  exact ((continuousAt_const.add (continuousAt_const.mul
    ((c2.div (Real.continuous_sinh.continuousAt.comp c2) hsh).pow 2))).add (continuousAt_const.mul
    ((c4.div (Real.continuous_cosh.continuousAt.comp c4) hch).pow 2)))

theorem const_of_zero_deriv {f : ℝ → ℝ} (h : ∀ b, 0 < b → HasDerivAt f 0 b) (x y : ℝ) (hx : 0 < x)
    (hy : 0 < y) : f x = f y :=
  isOpen_Ioi.is_const_of_deriv_eq_zero (convex_Ioi (0 : ℝ)).isPreconnected
    (fun b hb => (h b hb).differentiableAt.differentiableWithinAt)
    (fun b hb => (h b hb).deriv) hx hy

/-- The Helmholtz energy of the Aly-Lee heat capacity referred to `T0` against the closed form. -/
theorem alyLee_integral (k0 k1 k2 k3 k4 T0 T : ℝ) (hT0 : 0 < T0) (hT : 0 < T) (h2 : 0 < k2) :
    fromCp0 (fun _ => k0) T0 T + alyLeeVib k1 k2 k3 k4 T
      = fromCp0 (alyLeeCp k0 k1 k2 k3 k4) T0 T + alyLeeVib k1 k2 k3 k4 T0
        + vibSlope k1 k2 k3 k4 T0 * (1 / T - 1 / T0) := by
  obtain ⟨a1, a2⟩ := fromCp0_derivs _ (alyLeeCp_continuousOn k0 k1 k2 k3 k4 h2) T0 hT0
  obtain ⟨c1, c2⟩ := fromCp0_derivs (fun _ => k0) continuousOn_const T0 hT0
  have b0 : 0 < 1 / T0 := by positivity
  have b1 : 0 < 1 / T := by positivity
  -- the slope
  have hs : ∀ b, 0 < b → (∫ s in T0..1 / b, k0) + vibSlope k1 k2 k3 k4 (1 / b)
      - (∫ s in T0..1 / b, alyLeeCp k0 k1 k2 k3 k4 s) = vibSlope k1 k2 k3 k4 T0 := by
    intro b hb
    have := const_of_zero_deriv (f := fun b => (∫ s in T0..1 / b, k0) + vibSlope k1 k2 k3 k4 (1 / b)
      - (∫ s in T0..1 / b, alyLeeCp k0 k1 k2 k3 k4 s)) (fun b hb => by
        refine (((c2 b hb).add (vibSlope_deriv k1 k2 k3 k4 b h2 hb)).sub (a2 b hb)).congr_deriv ?_
        unfold alyLeeCp
        ring) b (1 / T0) hb b0
    simp only [one_div_one_div, intervalIntegral.integral_same] at this
    simpa using this
  have hv := const_of_zero_deriv (f := fun b => fromCp0 (fun _ => k0) T0 (1 / b)
      + alyLeeVib k1 k2 k3 k4 (1 / b) - fromCp0 (alyLeeCp k0 k1 k2 k3 k4) T0 (1 / b)
      - vibSlope k1 k2 k3 k4 T0 * b) (fun b hb => by
        refine ((((c1 b hb).add (vib_deriv k1 k2 k3 k4 b h2 hb)).sub (a1 b hb)).sub
          ((hasDerivAt_id b).const_mul (vibSlope k1 k2 k3 k4 T0))).congr_deriv ?_
        linarith [hs b hb]) (1 / T) (1 / T0) b1 b0
  simp only [one_div_one_div] at hv
  have z : ∀ cp : ℝ → ℝ, fromCp0 cp T0 T0 = 0 := fun cp => by simp [fromCp0]
  rw [z, z] at hv
  linarith

/-- C21/C22. The converted Aly-Lee term is the Helmholtz energy of the heat capacity it states, referred
to `T0`, and an offset `a + b/T`: the two vibrational terms are not referred to `T0`, their values at
`T0` being left in the entropy and in the enthalpy. -/
theorem alyLee_referred (k0 k1 k2 k3 k4 T0 Tr ρr R T ρ : ℝ) (hT0 : 0 < T0) (hT : 0 < T) (h2 : 0 < k2) :
    convertedValue (alyLeeDoc k0 k1 k2 k3 k4 T0) Tr ρr R T ρ
      = .ok (fromCp0 (alyLeeCp (kept k0) (kept k1) k2 (kept k3) k4) T0 T
        + alyLeeVib (kept k1) k2 (kept k3) k4 T0
        + vibSlope (kept k1) k2 (kept k3) k4 T0 * (1 / T - 1 / T0)) := by
  rw [alyLee_value _ _ _ _ _ _ _ _ _ _ _ hT0 hT, alyLee_integral _ _ _ _ _ _ _ hT0 hT h2]

/-- C22. The enthalpy of an Aly-Lee term does not vanish at `T0`: with positive coefficients the
derivative in `1/T` there is positive. -/
theorem alyLee_enthalpy_left (k0 k1 k2 k3 k4 T0 Tr ρr R ρ : ℝ) (hT0 : 0 < T0)
    (h1 : 1e-14 < k1) (h2 : 0 < k2) (h3 : 0 ≤ k3) (h4 : 0 ≤ k4) :
    ∃ g : ℝ → ℝ, (∀ T, 0 < T → convertedValue (alyLeeDoc k0 k1 k2 k3 k4 T0) Tr ρr R T ρ = .ok (g T)) ∧
      0 < deriv (fun β => g (1 / β)) (1 / T0) ∧ g T0 = alyLeeVib k1 k2 (kept k3) k4 T0 := by
  have hk1 : kept k1 = k1 := if_pos (by rw [abs_of_pos (by linarith)]; exact h1)
  have hk3 : 0 ≤ kept k3 := by unfold kept; split_ifs <;> simp [h3]
  refine ⟨fun T => fromCp0 (fun _ => kept k0) T0 T + alyLeeVib (kept k1) k2 (kept k3) k4 T,
    fun T hT => alyLee_value _ _ _ _ _ _ _ _ _ _ _ hT0 hT, ?_, ?_⟩
  · have b0 : 0 < 1 / T0 := by positivity
    obtain ⟨c1, -⟩ := fromCp0_derivs (fun _ => kept k0) continuousOn_const T0 hT0
    have hd : HasDerivAt (fun β => fromCp0 (fun _ => kept k0) T0 (1 / β)
        + alyLeeVib (kept k1) k2 (kept k3) k4 (1 / β)) _ (1 / T0) :=
      (c1 _ b0).add (vib_deriv (kept k1) k2 (kept k3) k4 _ h2 b0)
    simp only
    rw [hd.deriv]
    simp only [one_div_one_div, intervalIntegral.integral_same, zero_add]
    unfold vibSlope
    have hgt : 1 < Real.exp (2 * k2 / T0) := Real.one_lt_exp_iff.mpr (by positivity)
    have p1 : 0 < kept k1 * (2 * k2) / (Real.exp (2 * k2 / T0) - 1) := by
      rw [hk1]
      exact div_pos (mul_pos (by linarith) (by linarith)) (by linarith)
    have p3 : 0 ≤ kept k3 * (2 * k4) / (Real.exp (2 * k4 / T0) + 1) := by positivity
    linarith
  · simp only [hk1]
    simp [fromCp0]

/-- Methane's coefficients in CoolProp's format (rounded). -/
example : ∃ g : ℝ → ℝ, (∀ T, 0 < T →
      convertedValue (alyLeeDoc 4 9.6 1043 5.0 995 298.15) 190.6 10140 8.314 T 5 = .ok (g T)) ∧
    0 < deriv (fun β => g (1 / β)) (1 / 298.15) ∧
    g 298.15 = alyLeeVib 9.6 1043 (kept 5.0) 995 298.15 :=
  alyLee_enthalpy_left _ _ _ _ _ _ _ _ _ _ (by norm_num) (by norm_num) (by norm_num) (by norm_num)
    (by norm_num)

end Teqp.Props

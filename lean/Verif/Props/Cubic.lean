import Verif.Lemmas.Cubic
import Mathlib.Tactic.NormNum
import Mathlib.Tactic.FinCases
import Mathlib.Algebra.BigOperators.Field

/-! # C12 (van der Waals), C13 (cubic pressure), C14 (mixing invariances), C15 (sizes),
C16 (volume translation) -/

set_option autoImplicit false

namespace Teqp.Props
open Teqp.Model Teqp.Spec Teqp.Lemmas Filter Topology

theorem RuvdW_pos : 0 < RuvdW := by unfold RuvdW; norm_num

/-! ## C12 -/

/-- C12. The one-fluid van der Waals model has the van der Waals pressure, and its pressure-explicit
method returns the same value. -/
theorem vdW1_pressure (a b T ρ : ℝ) (hT : 0 < T) (hρ : 0 < ρ) (h : b * ρ < 1) :
    totalPressure (vdW1_alphar a b) RuvdW T ρ = vdWPressure RuvdW a b T (1 / ρ) ∧
    vdW1_p a b T (1 / ρ) = vdWPressure RuvdW a b T (1 / ρ) := by
  refine ⟨?_, by simp [vdW1_p, vdWPressure, pow_two]⟩
  have := totalPressure_vdW (RR := RuvdW) (a := a) (b := b) RuvdW_pos.ne' hT.ne'
    (sub_ne_zero.mpr h.ne')
  refine this.trans ?_
  rw [cubicP_volume hρ.ne']
  simp [vdWPressure]

example : totalPressure (vdW1_alphar 0.1382 3.2e-5) RuvdW 150 1000
    = vdWPressure RuvdW 0.1382 3.2e-5 150 (1 / 1000) :=
  (vdW1_pressure _ _ _ _ (by norm_num) (by norm_num) (by norm_num)).1

/-- C12. The mixture model has the van der Waals pressure with its mixture `a` and `b`. -/
theorem vdWMix_pressure {ι : Type} [Fintype ι] (m : VdWMix ι) (x : ι → ℝ) (T ρ : ℝ) (hT : 0 < T)
    (hρ : 0 < ρ) (h : m.b x * ρ < 1) :
    totalPressure (fun T r => m.alphar T r x) RuvdW T ρ
      = vdWPressure RuvdW (m.a x) (m.b x) T (1 / ρ) := by
  have := totalPressure_vdW (RR := RuvdW) (a := m.a x) (b := m.b x) RuvdW_pos.ne' hT.ne'
    (sub_ne_zero.mpr h.ne')
  refine this.trans ?_
  rw [cubicP_volume hρ.ne']
  simp [vdWPressure]

example : totalPressure (fun T r => (VdWMix.ofCritical (ι := Fin 2) (fun _ => 150) (fun _ => 4e6)).alphar
      T r (fun _ => 0.5)) RuvdW 150 1
    = vdWPressure RuvdW ((VdWMix.ofCritical (ι := Fin 2) (fun _ => 150) (fun _ => 4e6)).a fun _ => 0.5)
        ((VdWMix.ofCritical (ι := Fin 2) (fun _ => 150) (fun _ => 4e6)).b fun _ => 0.5) 150 (1 / 1) := by
  refine vdWMix_pressure _ _ _ _ (by norm_num) (by norm_num) ?_
  simp only [VdWMix.b, VdWMix.ofCritical, Fin.sum_univ_two, RuvdW]
  norm_num

theorem vdWMix_a_single {ι : Type} [Fintype ι] [DecidableEq ι] (m : VdWMix ι) (i : ι) :
    m.a (Pi.single i 1) = (1 - m.k i i) * Real.sqrt (m.ai i * m.ai i) := by
  unfold VdWMix.a
  rw [Finset.sum_eq_single i, Finset.sum_eq_single i]
  · simp
  · intro j _ hj; simp [Pi.single_eq_of_ne hj]
  · simp
  · intro j _ hj; simp [Pi.single_eq_of_ne hj]
  · simp

theorem vdWMix_b_single {ι : Type} [Fintype ι] [DecidableEq ι] (m : VdWMix ι) (i : ι) :
    m.b (Pi.single i 1) = m.bi i := by
  unfold VdWMix.b
  rw [Finset.sum_eq_single i]
  · simp
  · intro j _ hj; simp [Pi.single_eq_of_ne hj]
  · simp

theorem vdW_isCritical {R Tc pc a b : ℝ} {p : ℝ → ℝ} (hR : 0 < R) (hT : 0 < Tc) (hp : 0 < pc)
    (ha : a = 27 / 64 * (R * Tc) ^ 2 / pc) (hb : b = 1 / 8 * R * Tc / pc)
    (he : p =ᶠ[𝓝 (1 / (3 * b))] cubicP (R * Tc) a b 0 0) : IsCriticalPoint p (1 / (3 * b)) pc := by
  have hb0 : 0 < b := by rw [hb]; positivity
  have hbr : b * (1 / (3 * b)) = 1 / 3 := by field_simp
  have hu : 1 - b * (1 / (3 * b)) = 2 / 3 := by rw [hbr]; norm_num
  have hpc : pc = 1 / 8 * R * Tc / b := by rw [hb]; field_simp
  have ha' : a = 27 / 8 * R * Tc * b := by rw [ha, hb]; field_simp; norm_num
  refine critical_of_cubicP (RT := R * Tc) (a := a) (b := b) (s := 0) (m := 0) ?_ ?_ he ?_ ?_ ?_
  · rw [hu]; norm_num
  · norm_num
  · unfold cubicP; rw [hu, ha', hpc]; field_simp; norm_num
  · unfold cubicP1; rw [hu, ha']; field_simp; norm_num
  · unfold cubicP2; rw [hu, ha']; field_simp; norm_num

/-- C12. Built from critical temperatures and pressures, the mixture model evaluated for a pure
component has its critical point exactly at the given temperature and pressure, with density
`1/(3b)`. -/
theorem vdWMix_critical {ι : Type} [Fintype ι] [DecidableEq ι] (Tc pc : ι → ℝ) (i : ι)
    (hT : 0 < Tc i) (hp : 0 < pc i) :
    IsCriticalPoint (fun ρ => totalPressure
        (fun T r => (VdWMix.ofCritical Tc pc).alphar T r (Pi.single i 1)) RuvdW (Tc i) ρ)
      (1 / (3 * (VdWMix.ofCritical Tc pc).bi i)) (pc i) := by
  have hR := RuvdW_pos
  have hb : (VdWMix.ofCritical Tc pc).bi i = 1 / 8 * RuvdW * Tc i / pc i := rfl
  have hb0 : 0 < (VdWMix.ofCritical Tc pc).bi i := by rw [hb]; positivity
  refine vdW_isCritical hR hT hp (a := 27 / 64 * (RuvdW * Tc i) ^ 2 / pc i) rfl hb ?_
  have hev : ∀ᶠ r in 𝓝 (1 / (3 * (VdWMix.ofCritical Tc pc).bi i)),
      1 - (VdWMix.ofCritical Tc pc).bi i * r ≠ 0 := by
    refine ContinuousAt.eventually_ne (by fun_prop) ?_
    have : (VdWMix.ofCritical Tc pc).bi i * (1 / (3 * (VdWMix.ofCritical Tc pc).bi i)) = 1 / 3 := by
      field_simp
    rw [this]; norm_num
  filter_upwards [hev] with r hr
  have ha : (VdWMix.ofCritical Tc pc).a (Pi.single i 1) = 27 / 64 * (RuvdW * Tc i) ^ 2 / pc i := by
    rw [vdWMix_a_single, Real.sqrt_mul_self]
    · simp [VdWMix.ofCritical]
    · simp only [VdWMix.ofCritical]; positivity
  have := totalPressure_vdW (RR := RuvdW) (a := 27 / 64 * (RuvdW * Tc i) ^ 2 / pc i)
    (b := (VdWMix.ofCritical Tc pc).bi i) (ρ := r) hR.ne' hT.ne' hr
  simp only [VdWMix.alphar, ha, vdWMix_b_single]
  exact this

example : IsCriticalPoint (fun ρ => totalPressure
    (fun T r => (VdWMix.ofCritical (ι := Fin 2) ![150, 300] ![4e6, 5e6]).alphar T r (Pi.single 1 1))
      RuvdW 300 ρ) (1 / (3 * (VdWMix.ofCritical (ι := Fin 2) ![150, 300] ![4e6, 5e6]).bi 1)) 5e6 :=
  vdWMix_critical (ι := Fin 2) ![150, 300] ![4e6, 5e6] 1 (by norm_num) (by norm_num)

/-! ## C13 -/

/-- C13. The residual Helmholtz energy of a cubic model gives the two-parameter cubic pressure, below
close packing, for volume constants above `-1` (SRK, Peng-Robinson and RK-PR all qualify). -/
theorem cubic_pressure_core {R a b D1 D2 T ρ : ℝ} (hR : 0 < R) (hT : 0 < T) (hb : 0 < b) (hρ : 0 < ρ)
    (h : b * ρ < 1) (hD : D1 ≠ D2) (hD1 : -1 < D1) (hD2 : -1 < D2) :
    totalPressure (fun T r => cubicAlphar R a b D1 D2 T r) R T ρ
      = cubicPressure R a b D1 D2 T (1 / ρ) := by
  have hbr : 0 < b * ρ := mul_pos hb hρ
  have key : ∀ D : ℝ, -1 < D → 0 < D * b * ρ + 1 := fun D hD => by nlinarith
  rw [totalPressure_cubicAlphar hR.ne' hT.ne' hb.ne' hD (sub_ne_zero.mpr h.ne') (key _ hD1).ne'
    (key _ hD2).ne', cubicP_volume hρ.ne']
  unfold cubicPressure
  have : (1 / ρ) ^ 2 + (D1 + D2) * b * (1 / ρ) + D1 * D2 * b ^ 2
      = (1 / ρ + D1 * b) * (1 / ρ + D2 * b) := by ring
  rw [this]

/-- C13 for the `GenericCubic` class. -/
theorem cubic_pressure {ι : Type} [Fintype ι] (m : Cubic ι) (x : ι → ℝ) (T ρ : ℝ) (hR : 0 < m.R)
    (hT : 0 < T) (hb : 0 < m.get_b x) (hρ : 0 < ρ) (h : m.get_b x * ρ < 1)
    (hD : m.Delta1 ≠ m.Delta2) (hD1 : -1 < m.Delta1) (hD2 : -1 < m.Delta2) :
    totalPressure (fun T r => m.alphar T r x) m.R T ρ
      = cubicPressure m.R (m.get_a T x) (m.get_b x) m.Delta1 m.Delta2 T (1 / ρ) := by
  have h2 := cubic_pressure_core (a := m.get_a T x) hR hT hb hρ h hD hD1 hD2
  rw [← h2]
  simp only [totalPressure, pressure, helmholtz, Cubic.alphar]

example : totalPressure (fun T r => (canonicalSRK (ι := Fin 1) (fun _ => 190) (fun _ => 4.6e6)
      (fun _ => 0.011) (fun _ _ => 0) 8.314).alphar T r (fun _ => 1)) 8.314 200 1000
    = cubicPressure 8.314 ((canonicalSRK (ι := Fin 1) (fun _ => 190) (fun _ => 4.6e6)
      (fun _ => 0.011) (fun _ _ => 0) 8.314).get_a 200 fun _ => 1) ((canonicalSRK (ι := Fin 1)
      (fun _ => 190) (fun _ => 4.6e6) (fun _ => 0.011) (fun _ _ => 0) 8.314).get_b fun _ => 1) 1 0 200
      (1 / 1000) := by
  have h2 : (1 : ℝ) < 2 ^ (1 / 3 : ℝ) := Real.one_lt_rpow (by norm_num) (by norm_num)
  have h3 : (2 : ℝ) ^ (1 / 3 : ℝ) < 2 := by
    have := Real.rpow_lt_rpow_of_exponent_lt (x := 2) (y := 1 / 3) (z := 1) (by norm_num) (by norm_num)
    simpa using this
  refine cubic_pressure (canonicalSRK (ι := Fin 1) (fun _ => 190) (fun _ => 4.6e6)
      (fun _ => 0.011) (fun _ _ => 0) 8.314) (fun _ => 1) 200 1000 ?_ ?_ ?_ ?_ ?_ ?_ ?_ ?_
  · norm_num [canonicalSRK, Cubic.build]
  · norm_num
  · simp only [canonicalSRK, Cubic.build, Cubic.get_b, OmegaB_SRK, Fin.sum_univ_one]
    have : (0 : ℝ) < 2 ^ (1 / 3 : ℝ) - 1 := by linarith
    positivity
  · norm_num
  · simp only [canonicalSRK, Cubic.build, Cubic.get_b, OmegaB_SRK, Fin.sum_univ_one]
    linarith
  all_goals norm_num [canonicalSRK, Cubic.build]

/-- C13. Cubic models have no residual at zero density. -/
theorem cubic_zero_density (R a b D1 D2 T : ℝ) : cubicAlphar R a b D1 D2 T 0 = 0 := by
  simp [cubicAlphar]

example : cubicAlphar 8.314 0.3 3e-5 (1 + Real.sqrt 2) (1 - Real.sqrt 2) 300 0 = 0 :=
  cubic_zero_density _ _ _ _ _ _

/-- The critical conditions of a cubic isotherm, given the reduced critical volume `y = v_c/b`. -/
theorem cubic_isCritical {R Tc pc a b s m y Ωa Ωb : ℝ} {p : ℝ → ℝ} (hR : 0 < R) (hT : 0 < Tc)
    (hp : 0 < pc) (hy : 1 < y) (hs : 0 < 3 * y + s - 1) (hm : m = 1 - s)
    (hq : 0 < y ^ 2 + s * y + m) (hw : (y - 1) ^ 3 = 6 * (y - 1) + 2 * (2 + s))
    (ha : a = Ωa * (R * Tc) ^ 2 / pc) (hb : b = Ωb * R * Tc / pc)
    (hΩa : Ωa = (3 * y * y + 3 * y * s + s * s + s - 1) / (3 * y + s - 1) ^ 2)
    (hΩb : Ωb = 1 / (3 * y + s - 1))
    (he : p =ᶠ[𝓝 (1 / (y * b))] cubicP (R * Tc) a b s m) : IsCriticalPoint p (1 / (y * b)) pc := by
  have hΩb0 : 0 < Ωb := by rw [hΩb]; positivity
  have hb0 : 0 < b := by rw [hb]; positivity
  have hy0 : 0 < y := by linarith
  have hy1 : 0 < y - 1 := by linarith
  have hu : 1 - b * (1 / (y * b)) = (y - 1) / y := by field_simp
  have hqq : 1 + s * b * (1 / (y * b)) + m * b ^ 2 * (1 / (y * b)) ^ 2
      = (y ^ 2 + s * y + m) / y ^ 2 := by field_simp
  have hpc : pc = Ωb * R * Tc / b := by rw [hb]; field_simp
  have ha' : a = (3 * y * y + 3 * y * s + s * s + s - 1) / (3 * y + s - 1) * (R * Tc) * b := by
    rw [ha, hb, hΩa, hΩb]; field_simp
  -- all three conditions reduce to the cubic relation for `y`
  obtain ⟨Q, hQ⟩ : ∃ Q, Q = y ^ 2 + s * y + m := ⟨_, rfl⟩
  obtain ⟨N, hN⟩ : ∃ N, N = 3 * y + s - 1 := ⟨_, rfl⟩
  obtain ⟨A, hA⟩ : ∃ A, A = 3 * y * y + 3 * y * s + s * s + s - 1 := ⟨_, rfl⟩
  rw [← hQ] at hq hqq
  rw [← hN] at hs hΩb
  rw [← hA, ← hN] at ha'
  have hQm : Q = y ^ 2 + s * y + 1 - s := by rw [hQ, hm]; ring
  refine critical_of_cubicP (RT := R * Tc) (a := a) (b := b) (s := s) (m := m) ?_ ?_ he ?_ ?_ ?_
  · rw [hu]; positivity
  · rw [hqq]; positivity
  · unfold cubicP; rw [hu, hqq, ha', hpc, hΩb]
    field_simp
    rw [hQm, hN, hA]
    linear_combination (-1) * hw
  · unfold cubicP1; rw [hu, hqq, ha']
    field_simp
    rw [hQm, hN, hA]
    linear_combination (R * Tc * y ^ 2 * (-3 * y ^ 2 + (2 - 2 * s) * y + (2 * s - 1))) * hw
  · have key : N * Q ^ 3
        = A * (y - 1) ^ 3 * ((y + s) * Q - (2 * y + s) * (s * y + 2 * m)) := by
      rw [hQm, hN, hA, hm]
      linear_combination (-1 + 3 * s - 2 * s ^ 2 + 3 * y - 6 * y * s + 3 * y * s ^ 2 - 6 * y ^ 2
        + 6 * y ^ 2 * s - y ^ 3 * s ^ 2 + 3 * y ^ 4 - 3 * y ^ 4 * s - 3 * y ^ 5) * hw
    have hG : (2 + 2 * s * b * (1 / (y * b))) * (Q / y ^ 2)
        - 2 * (2 * (1 / (y * b)) + s * b * (1 / (y * b)) ^ 2) * (s * b + 2 * m * b ^ 2 * (1 / (y * b)))
        = 2 * ((y + s) * Q - (2 * y + s) * (s * y + 2 * m)) / y ^ 3 := by
      field_simp
    unfold cubicP2; rw [hu, hqq, ha', hG]
    generalize (y + s) * Q - (2 * y + s) * (s * y + 2 * m) = G at key
    field_simp
    linear_combination (2 * R * Tc * b * y ^ 3) * key


theorem sum_single {ι : Type} [Fintype ι] [DecidableEq ι] (i : ι) (g : ι → ℝ) :
    ∑ j, (Pi.single i 1 : ι → ℝ) j * g j = g i := by
  rw [Finset.sum_eq_single i]
  · simp
  · intro j _ hj; simp [Pi.single_eq_of_ne hj]
  · simp

theorem sum_sum_single {ι : Type} [Fintype ι] [DecidableEq ι] (i : ι) (g : ι → ι → ℝ) :
    ∑ i', ∑ j, (Pi.single i 1 : ι → ℝ) i' * (Pi.single i 1 : ι → ℝ) j * g i' j = g i i := by
  simp only [mul_assoc, ← Finset.mul_sum]
  rw [sum_single i, sum_single i]

/-- The pure-fluid critical point, from the pressure identity near the critical density. -/
theorem pure_critical {R Tc pc a b D1 D2 y Ωa Ωb : ℝ} {αr : ℝ → ℝ → ℝ} (hR : 0 < R) (hT : 0 < Tc)
    (hp : 0 < pc) (hy : 1 < y) (hs : 0 < 3 * y + (D1 + D2) - 1) (hm : D1 * D2 = 1 - (D1 + D2))
    (hq : 0 < y ^ 2 + (D1 + D2) * y + D1 * D2)
    (hw : (y - 1) ^ 3 = 6 * (y - 1) + 2 * (2 + (D1 + D2)))
    (ha : a = Ωa * (R * Tc) ^ 2 / pc) (hb : b = Ωb * R * Tc / pc)
    (hΩa : Ωa = (3 * y * y + 3 * y * (D1 + D2) + (D1 + D2) * (D1 + D2) + (D1 + D2) - 1)
      / (3 * y + (D1 + D2) - 1) ^ 2)
    (hΩb : Ωb = 1 / (3 * y + (D1 + D2) - 1)) (hD : D1 ≠ D2)
    (hα : ∀ r, αr Tc r = cubicAlphar R a b D1 D2 Tc r) :
    IsCriticalPoint (fun ρ => totalPressure αr R Tc ρ) (1 / (y * b)) pc := by
  refine cubic_isCritical hR hT hp hy hs hm hq hw ha hb hΩa hΩb ?_
  have hΩb0 : 0 < Ωb := by rw [hΩb]; positivity
  have hb0 : 0 < b := by rw [hb]; positivity
  have hy0 : 0 < y := by linarith
  have hq2 : (y + D1) * (y + D2) ≠ 0 := by
    have : (y + D1) * (y + D2) = y ^ 2 + (D1 + D2) * y + D1 * D2 := by ring
    rw [this]; exact hq.ne'
  have key : ∀ D : ℝ, y + D ≠ 0 → D * b * (1 / (y * b)) + 1 ≠ 0 := fun D hD => by
    have : D * b * (1 / (y * b)) + 1 = (y + D) / y := by field_simp; ring
    rw [this]; exact div_ne_zero hD hy0.ne'
  have n1 : ∀ᶠ r in 𝓝 (1 / (y * b)), 1 - b * r ≠ 0 := by
    refine ContinuousAt.eventually_ne (by fun_prop) ?_
    have : 1 - b * (1 / (y * b)) = (y - 1) / y := by field_simp
    rw [this]; exact div_ne_zero (by linarith) hy0.ne'
  have n2 : ∀ᶠ r in 𝓝 (1 / (y * b)), D1 * b * r + 1 ≠ 0 :=
    ContinuousAt.eventually_ne (by fun_prop) (key _ (left_ne_zero_of_mul hq2))
  have n3 : ∀ᶠ r in 𝓝 (1 / (y * b)), D2 * b * r + 1 ≠ 0 :=
    ContinuousAt.eventually_ne (by fun_prop) (key _ (right_ne_zero_of_mul hq2))
  filter_upwards [n1, n2, n3] with r h1 h2 h3
  rw [← totalPressure_cubicAlphar hR.ne' hT.ne' hb0.ne' hD h1 h2 h3]
  simp only [totalPressure, pressure, helmholtz, hα]

theorem alpha_at_Tc (f : AlphaFn) (h : f.Tc ≠ 0) : f.eval f.Tc = 1 := by
  cases f <;> simp only [AlphaFn.Tc] at h <;> simp [AlphaFn.eval, AlphaFn.Tc, div_self h]

theorem alpha_nonneg (f : AlphaFn) (T : ℝ) (hT : 0 ≤ T) (hTc : 0 ≤ f.Tc) : 0 ≤ f.eval T := by
  cases f with
  | basic Tc m => exact sq_nonneg _
  | twu Tc c0 c1 c2 =>
    simp only [AlphaFn.Tc] at hTc
    exact mul_nonneg (Real.rpow_nonneg (div_nonneg hT hTc) _) (Real.exp_pos _).le
  | mathiasCopeman Tc c0 c1 c2 => exact mul_self_nonneg _

theorem cubic_b_single {ι : Type} [Fintype ι] [DecidableEq ι] (m : Cubic ι) (i : ι) :
    m.get_b (Pi.single i 1) = m.bi i := sum_single i m.bi

theorem cubic_a_single {ι : Type} [Fintype ι] [DecidableEq ι] (m : Cubic ι) (i : ι) (T : ℝ)
    (h : 0 ≤ m.ai i * (m.alphas i).eval T) :
    m.get_a T (Pi.single i 1) = (1 - m.kmat i i) * (m.ai i * (m.alphas i).eval T) := by
  unfold Cubic.get_a
  rw [sum_sum_single i (fun i' j => (1 - m.kmat i' j) *
    Real.sqrt (m.ai i' * (m.alphas i').eval T * (m.ai j * (m.alphas j).eval T))),
    Real.sqrt_mul_self h]

/-- C13. With the SRK constants the pure-fluid isotherm at the input critical temperature has its
critical point exactly at the input critical pressure (and at compressibility factor 1/3). -/
theorem SRK_critical {ι : Type} [Fintype ι] [DecidableEq ι] (Tc pc ω : ι → ℝ) (k : ι → ι → ℝ) (R : ℝ)
    (i : ι) (hR : 0 < R) (hT : 0 < Tc i) (hp : 0 < pc i) (hk : k i i = 0) :
    IsCriticalPoint (fun ρ => totalPressure
      (fun T r => (canonicalSRK Tc pc ω k R).alphar T r (Pi.single i 1)) R (Tc i) ρ)
      (3 * pc i / (R * Tc i)) (pc i) := by
  obtain ⟨c, hc⟩ : ∃ c : ℝ, c = (2 : ℝ) ^ (1 / 3 : ℝ) := ⟨_, rfl⟩
  have hc3 : c ^ 3 = 2 := by rw [hc]; exact cbrt_cube (by norm_num)
  have hc1 : 1 < c := by rw [hc]; exact Real.one_lt_rpow (by norm_num) (by norm_num)
  have hc0 : 0 < c - 1 := by linarith
  have hy : (c - 1) * (1 + c + c ^ 2) = 1 := by linear_combination hc3
  have hA : OmegaA_SRK = (1 + c + c ^ 2) / 9 := by
    unfold OmegaA_SRK; rw [← hc]; field_simp; linear_combination (-1) * hy
  have hB : OmegaB_SRK = 1 / (3 * (1 + c + c ^ 2)) := by
    unfold OmegaB_SRK; rw [← hc]; field_simp; linear_combination hy
  have hy0 : 0 < 1 + c + c ^ 2 := by positivity
  have e : 3 * pc i / (R * Tc i)
      = 1 / ((1 + c + c ^ 2) * (OmegaB_SRK * R * Tc i / pc i)) := by
    rw [hB]; field_simp
  rw [e]
  have hw : (1 + c + c ^ 2 - 1) ^ 3 = 6 * (1 + c + c ^ 2 - 1) + 2 * (2 + (1 + 0)) := by
    linear_combination (c ^ 3 + 3 * c ^ 2 + 3 * c + 3) * hc3
  refine pure_critical (a := OmegaA_SRK * (R * Tc i) ^ 2 / pc i) (D1 := 1) (D2 := 0)
    hR hT hp ?_ ?_ (by norm_num) ?_ hw rfl rfl ?_ ?_ (by norm_num) ?_
  · nlinarith
  · nlinarith
  · nlinarith
  · rw [hA]; field_simp
    linear_combination 9 * hw
  · rw [hB]; ring_nf
  · intro r
    have hα : ((canonicalSRK Tc pc ω k R).alphas i).eval (Tc i) = 1 :=
      alpha_at_Tc (AlphaFn.basic (Tc i) (mSRK (ω i))) hT.ne'
    have ha0 : 0 ≤ (canonicalSRK Tc pc ω k R).ai i * ((canonicalSRK Tc pc ω k R).alphas i).eval (Tc i) := by
      have hai : (canonicalSRK Tc pc ω k R).ai i = OmegaA_SRK * (R * Tc i) ^ 2 / pc i := rfl
      rw [hα, hai, hA]; positivity
    unfold Cubic.alphar
    rw [cubic_a_single _ _ _ ha0, cubic_b_single, hα]
    simp [canonicalSRK, Cubic.build, hk]

example : IsCriticalPoint (fun ρ => totalPressure
      (fun T r => (canonicalSRK (ι := Fin 2) ![190.5, 305.3] ![4.6e6, 4.87e6] ![0.011, 0.099]
        (fun _ _ => 0) 8.314).alphar T r (Pi.single 1 1)) 8.314 305.3 ρ)
      (3 * 4.87e6 / (8.314 * 305.3)) 4.87e6 :=
  SRK_critical (ι := Fin 2) ![190.5, 305.3] ![4.6e6, 4.87e6] ![0.011, 0.099]
        (fun _ _ => 0) 8.314 1 (by norm_num) (by norm_num) (by norm_num) rfl


/-- C13. The RK-PR model has the cubic pressure with its mole-fraction-weighted `Δ₁`. -/
theorem RKPR_pressure {ι : Type} [Fintype ι] (m : RKPR ι) (z : ι → ℝ) (T ρ : ℝ) (hR : 0 < m.Ru)
    (hT : 0 < T) (hb : 0 < m.get_b z) (hρ : 0 < ρ) (h : m.get_b z * ρ < 1)
    (hD : -1 < ∑ i, z i * m.delta1 i)
    (hne : (∑ i, z i * m.delta1 i) ^ 2 + 2 * (∑ i, z i * m.delta1 i) ≠ 1) :
    totalPressure (fun T r => m.alphar T r z) m.Ru T ρ
      = cubicPressure m.Ru (m.get_a T z) (m.get_b z) (∑ i, z i * m.delta1 i)
          ((1 - ∑ i, z i * m.delta1 i) / (1 + ∑ i, z i * m.delta1 i)) T (1 / ρ) := by
  have hpos : 0 < 1 + ∑ i, z i * m.delta1 i := by linarith
  have h2 := cubic_pressure_core (a := m.get_a T z) (D1 := ∑ i, z i * m.delta1 i)
    (D2 := (1 - ∑ i, z i * m.delta1 i) / (1 + ∑ i, z i * m.delta1 i)) hR hT hb hρ h ?_ hD ?_
  · rw [← h2]
    simp only [totalPressure, pressure, helmholtz, RKPR.alphar]
  · intro he; rw [eq_div_iff hpos.ne'] at he; exact hne (by linear_combination he)
  · rw [lt_div_iff₀ hpos]; linarith

theorem rkpr_y_relation {d : ℝ} (hd : -1 < d) :
    (rkpr_y d - 1) ^ 3 = 6 * (rkpr_y d - 1) + 2 * (2 + rkpr_d1 d) ∧ 1 < rkpr_y d ∧
      0 < rkpr_d1 d := by
  have h1 : 0 < 1 + d := by linarith
  have hu0 : 0 < 2 * (1 + d) := by linarith
  have hv0 : 0 < 4 / (1 + d) := by positivity
  have hu := cbrt_cube hu0.le
  have hv := cbrt_cube hv0.le
  have huv : (2 * (1 + d)) ^ (1 / 3 : ℝ) * (4 / (1 + d)) ^ (1 / 3 : ℝ) = 2 := by
    rw [← Real.mul_rpow hu0.le hv0.le]
    have : 2 * (1 + d) * (4 / (1 + d)) = 2 ^ (3 : ℝ) := by field_simp; norm_num
    rw [this, ← Real.rpow_mul (by norm_num)]; norm_num
  have pu := Real.rpow_pos_of_pos hu0 (1 / 3 : ℝ)
  have pv := Real.rpow_pos_of_pos hv0 (1 / 3 : ℝ)
  unfold rkpr_y rkpr_d1
  generalize (2 * (1 + d)) ^ (1 / 3 : ℝ) = u at *
  generalize (4 / (1 + d)) ^ (1 / 3 : ℝ) = v at *
  refine ⟨?_, by linarith, div_pos (by nlinarith [mul_self_nonneg d]) h1⟩
  have e : 2 * (2 + (1 + d * d) / (1 + d)) = 2 * (1 + d) + 4 / (1 + d) := by field_simp; ring
  rw [e]
  linear_combination hu + hv + 3 * (u + v) * huv

/-- C13. The RK-PR constants put the critical point of each pure component exactly at its critical
temperature and pressure, for every `δ₁ > -1` with `δ₁ ≠ √2 - 1`. -/
theorem RKPR_critical {ι : Type} [Fintype ι] [DecidableEq ι] (m : RKPR ι) (i : ι) (hR : 0 < m.Ru)
    (hT : 0 < m.Tc i) (hp : 0 < m.pc i) (hk : m.kmat i i = 0) (hl : m.lmat i i = 0)
    (hd : -1 < m.delta1 i) (hne : m.delta1 i ^ 2 + 2 * m.delta1 i ≠ 1) :
    IsCriticalPoint (fun ρ => totalPressure
      (fun T r => m.alphar T r (Pi.single i 1)) m.Ru (m.Tc i) ρ)
      (1 / (rkpr_y (m.delta1 i) * m.b_c i)) (m.pc i) := by
  obtain ⟨hw, hy, hd1⟩ := rkpr_y_relation hd
  have h1 : 0 < 1 + m.delta1 i := by linarith
  have hs : m.delta1 i + (1 - m.delta1 i) / (1 + m.delta1 i) = rkpr_d1 (m.delta1 i) := by
    unfold rkpr_d1; field_simp; ring
  have hm : m.delta1 i * ((1 - m.delta1 i) / (1 + m.delta1 i)) = 1 - rkpr_d1 (m.delta1 i) := by
    unfold rkpr_d1; field_simp; ring
  have hN : 0 < 3 * rkpr_y (m.delta1 i) + rkpr_d1 (m.delta1 i) - 1 := by linarith
  have hA : 0 < 3 * rkpr_y (m.delta1 i) * rkpr_y (m.delta1 i)
      + 3 * rkpr_y (m.delta1 i) * rkpr_d1 (m.delta1 i)
      + rkpr_d1 (m.delta1 i) * rkpr_d1 (m.delta1 i) + rkpr_d1 (m.delta1 i) - 1 := by
    nlinarith
  refine pure_critical (a := m.a_c i) (D1 := m.delta1 i)
    (D2 := (1 - m.delta1 i) / (1 + m.delta1 i)) hR hT hp hy ?_ ?_ ?_ ?_ rfl rfl ?_ ?_ ?_ ?_
  · rw [hs]; exact hN
  · rw [hs, hm]
  · rw [hs, hm]; nlinarith
  · rw [hs]; exact hw
  · rw [hs]
  · rw [hs]
  · intro he; rw [eq_div_iff h1.ne'] at he; exact hne (by linear_combination he)
  · intro r
    have hac : 0 ≤ m.a_c i := by
      simp only [RKPR.a_c]
      exact div_nonneg (mul_nonneg (div_nonneg hA.le (sq_nonneg _)) (sq_nonneg _)) hp.le
    have ha : m.get_ai i (m.Tc i) = m.a_c i := by
      unfold RKPR.get_ai
      rw [div_self hT.ne']; norm_num
    have hga : m.get_a (m.Tc i) (Pi.single i 1) = m.a_c i := by
      unfold RKPR.get_a
      simp only [mul_assoc]
      simp only [← mul_assoc ((Pi.single i 1 : ι → ℝ) _) ((Pi.single i 1 : ι → ℝ) _)]
      rw [sum_sum_single i (fun i' j => Real.sqrt (m.get_ai i' (m.Tc i) * m.get_ai j (m.Tc i))
        * (1 - m.kmat i' j)), ha, Real.sqrt_mul_self hac, hk]
      ring
    have hgb : m.get_b (Pi.single i 1) = m.b_c i := by
      unfold RKPR.get_b
      simp only [mul_assoc, mul_div_assoc]
      simp only [← mul_assoc ((Pi.single i 1 : ι → ℝ) _) ((Pi.single i 1 : ι → ℝ) _)]
      rw [sum_sum_single i (fun i' j => (m.b_c i' + m.b_c j) / 2 * (1 - m.lmat i' j)), hl]
      ring
    simp only [RKPR.alphar]
    rw [hga, hgb, sum_single]

/-- A methane/ethane-like RK-PR mixture used for the non-vacuity examples. -/
noncomputable def demoRKPR : RKPR (Fin 2) where
  delta1 := ![0.85, 1.2]
  Tc := ![190, 305]
  pc := ![4.6e6, 4.87e6]
  k := ![1.5, 1.8]
  kmat := fun i j => if i = j then 0 else 0.01
  lmat := fun _ _ => 0
  Ru := 8.314

example : IsCriticalPoint (fun ρ => totalPressure
      (fun T r => demoRKPR.alphar T r (Pi.single 1 1)) 8.314 305 ρ)
      (1 / (rkpr_y 1.2 * demoRKPR.b_c 1)) 4.87e6 :=
  RKPR_critical demoRKPR 1 (by norm_num [demoRKPR]) (by norm_num [demoRKPR])
    (by norm_num [demoRKPR]) (by simp [demoRKPR]) rfl (by norm_num [demoRKPR])
    (by norm_num [demoRKPR])

/-- C13. The decimal Peng-Robinson constants of the code differ from the exact ones (which put the
critical point exactly at the input values) by less than `10⁻¹⁸`. -/
theorem PR_constants :
    ∃ Ωa Ωb y : ℝ, |OmegaA_PR - Ωa| ≤ 1e-18 ∧ |OmegaB_PR - Ωb| ≤ 1e-18 ∧
      ∀ (R Tc pc : ℝ), 0 < R → 0 < Tc → 0 < pc →
        IsCriticalPoint (fun ρ => totalPressure (fun T r => cubicAlphar R
          (Ωa * (R * Tc) ^ 2 / pc) (Ωb * R * Tc / pc) (1 + Real.sqrt 2) (1 - Real.sqrt 2) T r) R Tc ρ)
          (1 / (y * (Ωb * R * Tc / pc))) pc := by
  have h2 : Real.sqrt 2 ^ 2 = 2 := Real.sq_sqrt (by norm_num)
  have h20 : 0 < Real.sqrt 2 := Real.sqrt_pos.mpr (by norm_num)
  have hd : -1 < 1 + Real.sqrt 2 := by linarith
  obtain ⟨hw, hy, hd1⟩ := rkpr_y_relation hd
  have hd2 : rkpr_d1 (1 + Real.sqrt 2) = 2 := by
    unfold rkpr_d1
    rw [div_eq_iff (by linarith)]; linear_combination h2
  rw [hd2] at hw
  obtain ⟨y, hyy⟩ : ∃ y, y = rkpr_y (1 + Real.sqrt 2) := ⟨_, rfl⟩
  rw [← hyy] at hw hy
  have hs : (1 + Real.sqrt 2) + (1 - Real.sqrt 2) = 2 := by ring
  have hm : (1 + Real.sqrt 2) * (1 - Real.sqrt 2) = -1 := by linear_combination -h2
  obtain ⟨B, hB⟩ : ∃ B, B = 1 / (3 * y + 2 - 1) := ⟨_, rfl⟩
  have hN : 0 < 3 * y + 2 - 1 := by linarith
  have hB0 : 0 < B := by rw [hB]; positivity
  have hyB : y = (1 - B) / (3 * B) := by
    have : B * (3 * y + 2 - 1) = 1 := by rw [hB]; field_simp
    rw [eq_div_iff (by positivity)]; linear_combination this
  have hpoly : 64 * B ^ 3 + 6 * B ^ 2 + 12 * B - 1 = 0 := by
    rw [hyB] at hw
    field_simp at hw
    nlinarith [hw]
  have hBlt : B < 1 := by
    rw [hB, div_lt_one hN]; linarith
  have hdiff : |OmegaB_PR - B| ≤ 1e-19 := by
    have e : (OmegaB_PR - B) * (64 * (OmegaB_PR ^ 2 + OmegaB_PR * B + B ^ 2)
        + 6 * (OmegaB_PR + B) + 12) = 64 * OmegaB_PR ^ 3 + 6 * OmegaB_PR ^ 2 + 12 * OmegaB_PR - 1 := by
      linear_combination -hpoly
    have hO : 0 < OmegaB_PR := by unfold OmegaB_PR; norm_num
    have hp : 12 ≤ 64 * (OmegaB_PR ^ 2 + OmegaB_PR * B + B ^ 2) + 6 * (OmegaB_PR + B) + 12 := by
      have : 0 ≤ 64 * (OmegaB_PR ^ 2 + OmegaB_PR * B + B ^ 2) + 6 * (OmegaB_PR + B) := by positivity
      linarith
    have hf : |64 * OmegaB_PR ^ 3 + 6 * OmegaB_PR ^ 2 + 12 * OmegaB_PR - 1| ≤ 12 * 1e-19 := by
      unfold OmegaB_PR; rw [abs_le]; constructor <;> norm_num
    rw [← e, abs_mul, abs_of_pos (by linarith : (0 : ℝ) < 64 * (OmegaB_PR ^ 2 + OmegaB_PR * B + B ^ 2)
        + 6 * (OmegaB_PR + B) + 12)] at hf
    nlinarith [abs_nonneg (OmegaB_PR - B)]
  refine ⟨(3 * y * y + 3 * y * 2 + 2 * 2 + 2 - 1) / (3 * y + 2 - 1) ^ 2, B, y, ?_,
    hdiff.trans (by norm_num), ?_⟩
  · have hA : (3 * y * y + 3 * y * 2 + 2 * 2 + 2 - 1) / (3 * y + 2 - 1) ^ 2
        = (1 - B) ^ 2 / 3 + 2 * (1 - B) * B + 5 * B ^ 2 := by
      have : (3 * y + 2 - 1) = 1 / B := by rw [hB]; field_simp
      rw [this, hyB]; field_simp; ring
    rw [hA]
    have e : OmegaA_PR - ((1 - B) ^ 2 / 3 + 2 * (1 - B) * B + 5 * B ^ 2)
        = (OmegaA_PR - ((1 - OmegaB_PR) ^ 2 / 3 + 2 * (1 - OmegaB_PR) * OmegaB_PR + 5 * OmegaB_PR ^ 2))
          + (OmegaB_PR - B) * (4 / 3 + 10 / 3 * (OmegaB_PR + B)) := by ring
    rw [e]
    have h1 : |OmegaA_PR - ((1 - OmegaB_PR) ^ 2 / 3 + 2 * (1 - OmegaB_PR) * OmegaB_PR
        + 5 * OmegaB_PR ^ 2)| ≤ 1e-19 := by
      unfold OmegaA_PR OmegaB_PR; rw [abs_le]; constructor <;> norm_num
    have hO : 0 < OmegaB_PR ∧ OmegaB_PR < 0.1 := by unfold OmegaB_PR; norm_num
    have h3 : |4 / 3 + 10 / 3 * (OmegaB_PR + B)| ≤ 6 := by
      rw [abs_of_pos (by have := hO.1; positivity)]; linarith [hO.2]
    refine (abs_add_le _ _).trans ?_
    rw [abs_mul]
    refine (add_le_add h1 (mul_le_mul hdiff h3 (abs_nonneg _) (by norm_num))).trans ?_
    norm_num
  · intro R Tc pc hR hT hp
    refine pure_critical (D1 := 1 + Real.sqrt 2) (D2 := 1 - Real.sqrt 2)
      hR hT hp hy ?_ ?_ ?_ ?_ rfl rfl ?_ ?_ ?_ (fun r => rfl)
    · rw [hs]; exact hN
    · rw [hs, hm]; norm_num
    · rw [hs, hm]; nlinarith
    · rw [hs]; exact hw
    · rw [hs]
    · rw [hs, hB]
    · intro he; linarith


/-! ## C14 -/

/-- The cubic whose component `j` is a copy of component `f j` of `m`. -/
def copyComponents {ι κ : Type} (m : Cubic ι) (f : κ → ι) : Cubic κ where
  ai j := m.ai (f j)
  bi j := m.bi (f j)
  Delta1 := m.Delta1
  Delta2 := m.Delta2
  alphas j := m.alphas (f j)
  kmat i j := m.kmat (f i) (f j)
  R := m.R

theorem sum_fiber {ι κ : Type} [Fintype ι] [Fintype κ] [DecidableEq ι] (f : κ → ι) (x : κ → ℝ)
    (g : ι → ℝ) : ∑ j, x j * g (f j) = ∑ i, (∑ j with f j = i, x j) * g i := by
  simp only [Finset.sum_mul]
  rw [← Finset.sum_fiberwise (s := Finset.univ) (g := f)]
  refine Finset.sum_congr rfl fun i _ => Finset.sum_congr rfl fun j hj => ?_
  rw [(Finset.mem_filter.mp hj).2]

/-- C14. Relabelling and splitting in one statement: a mixture whose components are copies of those of
`m` (several copies of one component allowed, in any order) has the residual Helmholtz energy of `m` at
the lumped composition. -/
theorem cubic_lump {ι κ : Type} [Fintype ι] [Fintype κ] [DecidableEq ι] (m : Cubic ι) (f : κ → ι)
    (T ρ : ℝ) (x : κ → ℝ) :
    (copyComponents m f).alphar T ρ x = m.alphar T ρ (fun i => ∑ j with f j = i, x j) := by
  have hb : (copyComponents m f).get_b x = m.get_b (fun i => ∑ j with f j = i, x j) :=
    sum_fiber f x m.bi
  have ha : (copyComponents m f).get_a T x = m.get_a T (fun i => ∑ j with f j = i, x j) := by
    unfold Cubic.get_a copyComponents
    simp only [mul_assoc, ← Finset.mul_sum]
    have h1 : ∀ i', ∑ j, x j * ((1 - m.kmat (f i') (f j)) * Real.sqrt
        (m.ai (f i') * ((m.alphas (f i')).eval T * (m.ai (f j) * (m.alphas (f j)).eval T))))
        = (fun k => ∑ i, (∑ j with f j = i, x j) * ((1 - m.kmat k i) * Real.sqrt
        (m.ai k * ((m.alphas k).eval T * (m.ai i * (m.alphas i).eval T))))) (f i') := fun i' =>
      sum_fiber f x (fun i => (1 - m.kmat (f i') i) * Real.sqrt
        (m.ai (f i') * ((m.alphas (f i')).eval T * (m.ai i * (m.alphas i).eval T))))
    simp only [h1]
    exact sum_fiber f x (fun k => ∑ i, (∑ j with f j = i, x j) * ((1 - m.kmat k i) * Real.sqrt
        (m.ai k * ((m.alphas k).eval T * (m.ai i * (m.alphas i).eval T)))))
  unfold Cubic.alphar
  rw [ha, hb]
  rfl

/-- C14. Permuting the components leaves `alphar` unchanged. -/
theorem cubic_perm {ι : Type} [Fintype ι] [DecidableEq ι] (m : Cubic ι) (e : ι ≃ ι) (T ρ : ℝ)
    (x : ι → ℝ) : (copyComponents m e).alphar T ρ (fun j => x (e j)) = m.alphar T ρ x := by
  rw [cubic_lump]
  congr 1
  funext i
  rw [Finset.sum_eq_single (e.symm i)]
  · simp
  · intro j hj hne
    exact absurd (by rw [← (Finset.mem_filter.mp hj).2]; simp) hne
  · intro h; exact absurd (Finset.mem_filter.mpr ⟨Finset.mem_univ _, by simp⟩) h

/-- C14. Splitting component `i` into two identical ones with shares `s` and `x_i - s` leaves
`alphar` unchanged (the new component is `none`). -/
theorem cubic_split {ι : Type} [Fintype ι] [DecidableEq ι] (m : Cubic ι) (i : ι) (T ρ s : ℝ)
    (x : ι → ℝ) :
    (copyComponents m (fun o : Option ι => o.getD i)).alphar T ρ
      (fun o => match o with
        | none => s
        | some j => if j = i then x i - s else x j) = m.alphar T ρ x := by
  rw [cubic_lump]
  congr 1
  funext k
  rw [Finset.sum_filter, Fintype.sum_option]
  simp only [Option.getD_none, Option.getD_some]
  rw [Finset.sum_eq_single k]
  · by_cases h : i = k
    · subst h; simp
    · rw [if_neg h, if_pos rfl, if_neg (fun h' => h h'.symm)]; simp
  · intro j _ hj; rw [if_neg hj]
  · simp

/-- C14. At a vertex of the composition simplex the model is the one-component model of that
component, built with the same constants. -/
theorem cubic_pure_limit {ι : Type} [Fintype ι] [DecidableEq ι] (m : Cubic ι) (i : ι) (T ρ : ℝ) :
    m.alphar T ρ (Pi.single i 1) = (copyComponents m (fun _ : Unit => i)).alphar T ρ (fun _ => 1) := by
  rw [cubic_lump]
  congr 1
  funext k
  by_cases h : i = k
  · subst h; simp
  · simp [h]

/-- C14. The mixture `a` at a vertex is the component `a_i α_i(T)`, not only its absolute value. -/
theorem cubic_pure_a {ι : Type} [Fintype ι] [DecidableEq ι] (Tc pc : ι → ℝ) (D1 D2 ΩA ΩB R : ℝ)
    (al : ι → AlphaFn) (k : ι → ι → ℝ) (i : ι) (T : ℝ) (hΩ : 0 ≤ ΩA) (hpc : 0 < pc i) (hT : 0 ≤ T)
    (hTc : 0 ≤ (al i).Tc) (hk : k i i = 0) :
    (Cubic.build D1 D2 ΩA ΩB Tc pc al k R).get_a T (Pi.single i 1)
      = ΩA * (R * Tc i) ^ 2 / pc i * (al i).eval T := by
  rw [cubic_a_single]
  · simp [Cubic.build, hk]
  · exact mul_nonneg (div_nonneg (mul_nonneg hΩ (sq_nonneg _)) hpc.le) (alpha_nonneg _ _ hT hTc)

/-- C14. Every alpha function equals 1 at its critical temperature. -/
theorem alpha_one_at_Tc (f : AlphaFn) (h : 0 < f.Tc) : f.eval f.Tc = 1 := alpha_at_Tc f h.ne'

example : (AlphaFn.twu 190 0.1 0.9 2).eval 190 = 1 :=
  alpha_one_at_Tc (AlphaFn.twu 190 0.1 0.9 2) (by norm_num [AlphaFn.Tc])

/-- The binary used in the examples below. -/
noncomputable def demoSRK : Cubic (Fin 2) :=
  canonicalSRK ![190.5, 305.3] ![4.6e6, 4.87e6] ![0.011, 0.099]
    (fun i j => if i = j then 0 else 0.01) 8.314

example : (copyComponents demoSRK (Equiv.swap 0 1)).alphar 200 100 (fun j => ![0.3, 0.7] (Equiv.swap 0 1 j))
    = demoSRK.alphar 200 100 ![0.3, 0.7] := cubic_perm _ _ _ _ _

example : (copyComponents demoSRK (fun o : Option (Fin 2) => o.getD 1)).alphar 200 100
      (fun o => match o with
        | none => 0.2
        | some j => if j = 1 then ![0.3, 0.7] 1 - 0.2 else ![0.3, 0.7] j)
    = demoSRK.alphar 200 100 ![0.3, 0.7] := cubic_split _ _ _ _ _ _

example : demoSRK.get_a 250 (Pi.single 0 1)
    = OmegaA_SRK * (8.314 * 190.5) ^ 2 / 4.6e6 * (AlphaFn.basic 190.5 (mSRK 0.011)).eval 250 := by
  refine cubic_pure_a (ι := Fin 2) _ _ _ _ _ _ _ _ _ 0 250 ?_ ?_ ?_ ?_ ?_
  · unfold OmegaA_SRK
    have h2 : (1 : ℝ) < 2 ^ (1 / 3 : ℝ) := Real.one_lt_rpow (by norm_num) (by norm_num)
    have : (0 : ℝ) < 2 ^ (1 / 3 : ℝ) - 1 := by linarith
    positivity
  · norm_num
  · norm_num
  · norm_num [AlphaFn.Tc]
  · rfl

/-- Interaction parameters enter symmetrically even when the matrix is not symmetric: only the
average of `k_ij` and `k_ji` matters. -/
theorem cubic_kmat_symmetrised {ι : Type} [Fintype ι] (m : Cubic ι) (T ρ : ℝ) (x : ι → ℝ) :
    ({ m with kmat := fun i j => (m.kmat i j + m.kmat j i) / 2 } : Cubic ι).alphar T ρ x
      = m.alphar T ρ x := by
  have ha : ({ m with kmat := fun i j => (m.kmat i j + m.kmat j i) / 2 } : Cubic ι).get_a T x
      = m.get_a T x := by
    have e1 : m.get_a T x = ∑ i, ∑ j, x i * x j * ((1 - m.kmat j i) *
        Real.sqrt (m.ai i * (m.alphas i).eval T * (m.ai j * (m.alphas j).eval T))) := by
      unfold Cubic.get_a
      rw [Finset.sum_comm]
      refine Finset.sum_congr rfl fun i _ => Finset.sum_congr rfl fun j _ => ?_
      rw [mul_comm (x j) (x i), mul_comm (m.ai j * (m.alphas j).eval T)]
    have e2 : m.get_a T x = (m.get_a T x + m.get_a T x) / 2 := by ring
    rw [e2]
    nth_rw 2 [e1]
    unfold Cubic.get_a
    simp only [← Finset.sum_add_distrib, Finset.sum_div]
    refine Finset.sum_congr rfl fun i _ => Finset.sum_congr rfl fun j _ => ?_
    ring
  unfold Cubic.alphar
  rw [ha]
  rfl

example : ({ demoSRK with kmat := fun i j => (demoSRK.kmat i j + demoSRK.kmat j i) / 2 } :
    Cubic (Fin 2)).alphar 200 100 ![0.3, 0.7] = demoSRK.alphar 200 100 ![0.3, 0.7] :=
  cubic_kmat_symmetrised _ _ _ _

/-! ## C15 -/

/-- C15. The van der Waals constructor succeeds exactly on arrays of equal length; evaluation succeeds
exactly on compositions of that length; everything else is the invalid-argument error. -/
theorem vdW_sizes (Tc pc x : List ℝ) (T ρ : ℝ) :
    (Tc.length ≠ pc.length → vdWCtor Tc pc = .throws .invalidArgument) ∧
    (Tc.length = pc.length → ∃ M, vdWCtor Tc pc = .ok M ∧ M.n = Tc.length ∧
      (x.length ≠ Tc.length → M.alphar T ρ x = .throws .invalidArgument) ∧
      (x.length = Tc.length → ∃ v, M.alphar T ρ x = .ok v)) := by
  constructor
  · intro h; unfold vdWCtor; rw [dif_pos h]
  · intro h
    unfold vdWCtor
    rw [dif_neg (not_not.mpr h)]
    refine ⟨_, rfl, rfl, fun hx => ?_, fun hx => ?_⟩
    · unfold VdWAny.alphar; rw [dif_pos hx]
    · unfold VdWAny.alphar; rw [dif_neg (not_not.mpr hx)]; exact ⟨_, rfl⟩

example : vdWCtor [150, 300] [4e6] = .throws .invalidArgument :=
  (vdW_sizes [150, 300] [4e6] [] 0 0).1 (by simp)

/-- C15. The interaction matrix is accepted exactly when it is square and either empty (then replaced
by zeros) or of the size of the component list. -/
theorem checkKmat_spec (k : Mat) (N : ℕ) :
    (checkKmat k N = .throws .invalidArgument ∨ ∃ k', checkKmat k N = .ok k' ∧ k'.rows = N ∧ k'.cols = N)
    ∧ ((∃ k', checkKmat k N = .ok k') ↔ k.rows = k.cols ∧ (k.cols = 0 ∨ k.cols = N)) := by
  unfold checkKmat
  by_cases h1 : k.cols ≠ k.rows
  · rw [if_pos h1]
    refine ⟨.inl rfl, ?_⟩
    constructor
    · rintro ⟨_, h⟩; exact absurd h (by simp)
    · rintro ⟨h, _⟩; exact absurd h.symm h1
  · rw [if_neg h1]
    have h1' := not_not.mp h1
    by_cases h2 : k.cols = 0
    · rw [if_pos h2]
      exact ⟨.inr ⟨_, rfl, rfl, rfl⟩, ⟨fun _ => ⟨h1'.symm, .inl h2⟩, fun _ => ⟨_, rfl⟩⟩⟩
    · rw [if_neg h2]
      by_cases h3 : k.cols ≠ N
      · rw [if_pos h3]
        refine ⟨.inl rfl, ?_⟩
        constructor
        · rintro ⟨_, h⟩; exact absurd h (by simp)
        · rintro ⟨_, h | h⟩
          · exact absurd h h2
          · exact absurd h h3
      · rw [if_neg h3]
        have h3' := not_not.mp h3
        exact ⟨.inr ⟨_, rfl, h1'.symm.trans h3', h3'⟩,
          ⟨fun _ => ⟨h1'.symm, .inr h3'⟩, fun _ => ⟨_, rfl⟩⟩⟩

example : checkKmat ⟨2, 2, fun _ _ => 0⟩ 3 = .throws .invalidArgument := by
  rcases (checkKmat_spec ⟨2, 2, fun _ _ => 0⟩ 3).1 with h | ⟨k', h, _, _⟩
  · exact h
  · exact absurd ((checkKmat_spec ⟨2, 2, fun _ _ => 0⟩ 3).2.mp ⟨k', h⟩) (by simp)

/-- C15. A composition of the wrong length is refused by the generic cubic. -/
theorem cubic_alphar_size (m : CubicRT) (T ρ : ℝ) (x : List ℝ) (h : x.length ≠ m.alphas.length) :
    m.alphar T ρ x = .throws .stdInvalidArgument := by
  unfold CubicRT.alphar; rw [if_pos h]

/-- C15 (partial: only when `pcrit` and `acentric` are at least as long as `Tcrit`, see the two
counterexamples below). Then the outcome is a working model with as many components as `Tcrit`, or an
invalid-argument error because of the interaction matrix; evaluation accepts exactly compositions of
that length and never reads out of bounds. -/
theorem SRK_sizes_partial (Tc pc w : List ℝ) (k : Option Mat) (R T ρ : ℝ) (x : List ℝ)
    (hp : Tc.length ≤ pc.length) (hw : Tc.length ≤ w.length) :
    canonicalSRK_RT Tc pc w k R = .throws .invalidArgument ∨
    ∃ M, canonicalSRK_RT Tc pc w k R = .ok M ∧
      (x.length ≠ Tc.length → M.alphar T ρ x = .throws .stdInvalidArgument) ∧
      (x.length = Tc.length → ∃ v, M.alphar T ρ x = .ok v) := by
  unfold canonicalSRK_RT cubicCtor
  rw [if_neg (by omega), if_neg (by omega)]
  rcases (checkKmat_spec (k.getD (Mat.zero w.length)) Tc.length).1 with h | ⟨k', h, hr, hc⟩
  · left; rw [h]; rfl
  · right
    rw [h]
    refine ⟨_, rfl, fun hx => ?_, fun hx => ?_⟩
    · apply cubic_alphar_size; simpa [Nat.min_eq_left hw] using hx
    · unfold CubicRT.alphar
      rw [if_neg (by simp [Nat.min_eq_left hw, hx])]
      rw [dif_pos (by simp [Nat.min_eq_left hw, Nat.min_eq_left hp, hx, hr, hc])]
      exact ⟨_, rfl⟩

/-- The same for Peng-Robinson. -/
theorem PR_sizes_partial (Tc pc w : List ℝ) (k : Option Mat) (R T ρ : ℝ) (x : List ℝ)
    (hp : Tc.length ≤ pc.length) (hw : Tc.length ≤ w.length) :
    canonicalPR_RT Tc pc w k R = .throws .invalidArgument ∨
    ∃ M, canonicalPR_RT Tc pc w k R = .ok M ∧
      (x.length ≠ Tc.length → M.alphar T ρ x = .throws .stdInvalidArgument) ∧
      (x.length = Tc.length → ∃ v, M.alphar T ρ x = .ok v) := by
  unfold canonicalPR_RT cubicCtor
  rw [if_neg (by omega), if_neg (by omega)]
  rcases (checkKmat_spec (k.getD (Mat.zero w.length)) Tc.length).1 with h | ⟨k', h, hr, hc⟩
  · left; rw [h]; rfl
  · right
    rw [h]
    refine ⟨_, rfl, fun hx => ?_, fun hx => ?_⟩
    · apply cubic_alphar_size; simpa [Nat.min_eq_left hw] using hx
    · unfold CubicRT.alphar
      rw [if_neg (by simp [Nat.min_eq_left hw, hx])]
      rw [dif_pos (by simp [Nat.min_eq_left hw, Nat.min_eq_left hp, hx, hr, hc])]
      exact ⟨_, rfl⟩

example : ∃ M v, canonicalSRK_RT [190, 305] [4e6, 5e6] [0.01, 0.1] none 8.314 = .ok M ∧
    M.alphar 300 10 [0.5, 0.5] = .ok v := by
  rcases SRK_sizes_partial [190, 305] [4e6, 5e6] [0.01, 0.1] none 8.314 300 10 [0.5, 0.5]
    (by simp) (by simp) with h | ⟨M, h, _, h2⟩
  · exfalso
    simp [canonicalSRK_RT, cubicCtor, checkKmat, Mat.zero] at h
  · obtain ⟨v, hv⟩ := h2 (by simp)
    exact ⟨M, v, h, hv⟩

/-- C15 is false as stated: a `pcrit` array shorter than `Tcrit` is read out of bounds instead of being
refused, for every such input. -/
theorem SRK_short_pc_ub (Tc pc w : List ℝ) (k : Option Mat) (R : ℝ) (hp : pc.length < Tc.length)
    (hw : Tc.length ≤ w.length) : canonicalSRK_RT Tc pc w k R = .ub := by
  unfold canonicalSRK_RT cubicCtor
  rw [if_neg (by omega), if_pos hp]

/-- The same for a short `acentric` array. -/
theorem SRK_short_acentric_ub (Tc pc w : List ℝ) (k : Option Mat) (R : ℝ)
    (hw : w.length < Tc.length) : canonicalSRK_RT Tc pc w k R = .ub := by
  unfold canonicalSRK_RT; rw [if_pos hw]

/-- A longer `pcrit` array is silently cut. -/
theorem SRK_long_pc_accepted (Tc pc w extra : List ℝ) (k : Option Mat) (R : ℝ)
    (hp : pc.length = Tc.length) :
    canonicalSRK_RT Tc (pc ++ extra) w k R = canonicalSRK_RT Tc pc w k R := by
  have hz : ∀ (f : ℝ → ℝ → ℝ), List.zipWith f Tc (pc ++ extra) = List.zipWith f Tc pc := by
    intro f
    have := List.zipWith_append (f := f) (l₁ := Tc) (l₁' := []) (l₂ := pc) (l₂' := extra) hp.symm
    simpa using this
  unfold canonicalSRK_RT cubicCtor
  simp only [hz, List.length_append]
  by_cases h : w.length < Tc.length
  · rw [if_pos h, if_pos h]
  · rw [if_neg h, if_neg h, if_neg (by omega), if_neg (by omega)]

example : canonicalSRK_RT [190, 305] [4e6] [0.01, 0.1] none 8.314 = .ub :=
  SRK_short_pc_ub _ _ _ _ _ (by simp) (by simp)

/-- C15. The alpha-function list is checked for its length, but the number of coefficients of a
single entry is not: two coefficients are read past their end. -/
theorem buildAlphas_sizes (Tc : List ℝ) (js : List AlphaSpec) (h : js.length ≠ Tc.length) :
    buildAlphas Tc js = .throws .invalidArgument := by
  unfold buildAlphas; rw [if_pos h]

example : buildAlphas [190, 305] [.pr78 0.1] = .throws .invalidArgument :=
  buildAlphas_sizes _ _ (by simp)

theorem buildAlphas_short_coeffs_ub (t c0 c1 : ℝ) : buildAlphas [t] [.twu [c0, c1]] = .ub := by
  simp [buildAlphas, buildAlpha]

/-! ## C16 -/

/-- What the quantum-corrected Peng-Robinson model actually reports at molar volume `v = 1/ρ`: the
untranslated residual pressure at `v + c`, but the ideal-gas pressure still at `v`. -/
theorem QCPR_pressure {ι : Type} [Fintype ι] (m : QCPR ι) (z : ι → ℝ) (T ρ : ℝ) (hR : 0 < m.Ru)
    (hT : 0 < T) (hb : 0 < m.get_b T z) (hρ : 0 < ρ) (hc : 0 < 1 / ρ + m.get_c z)
    (h : m.get_b T z < 1 / ρ + m.get_c z) :
    totalPressure (fun T r => m.alphar T r z) m.Ru T ρ
      = cubicPressure m.Ru (m.get_a T z) (m.get_b T z) (1 + Real.sqrt 2) (1 - Real.sqrt 2) T
          (1 / ρ + m.get_c z)
        + m.Ru * T * (ρ - 1 / (1 / ρ + m.get_c z)) := by
  set c := m.get_c z
  set b := m.get_b T z
  set a := m.get_a T z
  set ρ' := 1 / (1 / ρ + c) with hρ'
  have hρ'0 : 0 < ρ' := by rw [hρ']; positivity
  have h20 : 0 < Real.sqrt 2 := Real.sqrt_pos.mpr (by norm_num)
  have h22 : Real.sqrt 2 < 2 := by
    rw [Real.sqrt_lt' (by norm_num)]; norm_num
  have hbρ : b * ρ' < 1 := by rw [hρ', mul_one_div, div_lt_one hc]; exact h
  have hbr : 0 < b * ρ' := mul_pos hb hρ'0
  have key : ∀ D : ℝ, -1 < D → 0 < D * b * ρ' + 1 := fun D hD => by nlinarith
  have hcore := cubic_pressure_core (a := a) (D1 := 1 + Real.sqrt 2) (D2 := 1 - Real.sqrt 2) hR hT hb
    hρ'0 hbρ (by intro he; linarith) (by linarith) (by linarith)
  have hv : 1 / ρ' = 1 / ρ + c := by rw [hρ', one_div_one_div]
  rw [hv] at hcore
  rw [← hcore]
  have hd := hasDerivAt_cubicAlphar (R := m.Ru) (a := a) (T := T) hb.ne'
    (by intro he; linarith : 1 + Real.sqrt 2 ≠ 1 - Real.sqrt 2) (sub_ne_zero.mpr hbρ.ne')
    (key (1 + Real.sqrt 2) (by linarith)).ne' (key (1 - Real.sqrt 2) (by linarith)).ne'
  have hin : HasDerivAt (fun r : ℝ => 1 / (1 / r + c)) (ρ' ^ 2 / ρ ^ 2) ρ := by
    have e1 : HasDerivAt (fun r : ℝ => 1 / r + c) (-(ρ ^ 2)⁻¹) ρ := by
      simpa using (hasDerivAt_inv hρ.ne').add_const c
    have e2 := e1.inv hc.ne'
    simp only [one_div] at e2 ⊢ hρ'
    refine e2.congr_deriv ?_
    rw [hρ']; field_simp
  have hcomp := HasDerivAt.comp (h₂ := fun r => cubicAlphar m.Ru a b (1 + Real.sqrt 2)
    (1 - Real.sqrt 2) T r) ρ hd hin
  have hfull := (hcomp.mul_const m.Ru).mul_const T
  have h0 := (hd.mul_const m.Ru).mul_const T
  have L : totalPressure (fun T r => m.alphar T r z) m.Ru T ρ = ρ * m.Ru * T + ρ ^ 2 *
      deriv (fun r => (((fun r => cubicAlphar m.Ru a b (1 + Real.sqrt 2) (1 - Real.sqrt 2) T r) ∘
        fun r => 1 / (1 / r + c)) r) * m.Ru * T) ρ := by
    have he : (fun r => helmholtz (fun T r => m.alphar T r z) m.Ru T r) =ᶠ[𝓝 ρ] fun r => (((fun r => cubicAlphar m.Ru a b
        (1 + Real.sqrt 2) (1 - Real.sqrt 2) T r) ∘ fun r => 1 / (1 / r + c)) r) * m.Ru * T := by
      filter_upwards [isOpen_ne.mem_nhds hρ.ne'] with r hr
      simp only [helmholtz, QCPR.alphar, QCPR.shift, if_neg (show r ≠ 0 from hr), Function.comp_apply]
      rfl
    unfold totalPressure pressure
    rw [he.deriv_eq]
  rw [L, hfull.deriv]
  simp only [totalPressure, pressure, helmholtz]
  rw [h0.deriv]
  generalize b / (1 - b * ρ') - a / (m.Ru * T) / (((1 + Real.sqrt 2) * b * ρ' + 1) *
    ((1 - Real.sqrt 2) * b * ρ' + 1)) = D
  field_simp
  ring

/-- C16 is false of the code: for every non-zero translation the reported pressure differs from the
untranslated pressure at `v + c`. -/
theorem QCPR_translation_wrong {ι : Type} [Fintype ι] (m : QCPR ι) (z : ι → ℝ) (T ρ : ℝ)
    (hR : 0 < m.Ru) (hT : 0 < T) (hb : 0 < m.get_b T z) (hρ : 0 < ρ) (hc : 0 < 1 / ρ + m.get_c z)
    (h : m.get_b T z < 1 / ρ + m.get_c z) :
    totalPressure (fun T r => m.alphar T r z) m.Ru T ρ
      = cubicPressure m.Ru (m.get_a T z) (m.get_b T z) (1 + Real.sqrt 2) (1 - Real.sqrt 2) T
          (1 / ρ + m.get_c z) ↔ m.get_c z = 0 := by
  rw [QCPR_pressure m z T ρ hR hT hb hρ hc h]
  constructor
  · intro he
    have h1 : m.Ru * T * (ρ - 1 / (1 / ρ + m.get_c z)) = 0 := by linarith
    have h2 : ρ - 1 / (1 / ρ + m.get_c z) = 0 := by
      rcases mul_eq_zero.mp h1 with h' | h'
      · exact absurd h' (mul_pos hR hT).ne'
      · exact h'
    have h3 : ρ * (1 / ρ + m.get_c z) = 1 := by
      rw [sub_eq_zero, eq_div_iff hc.ne'] at h2; exact h2
    have h4 : ρ * m.get_c z = 0 := by
      have : ρ * (1 / ρ) = 1 := by field_simp
      linarith
    rcases mul_eq_zero.mp h4 with h' | h'
    · exact absurd h' hρ.ne'
    · exact h'
  · intro he
    rw [he]; simp

/-- A neon-like fluid with a volume translation. -/
noncomputable def demoQCPR : QCPR (Fin 1) where
  Tc _ := 44.5
  pc _ := 2.7e6
  alphas _ := .twu 44.5 0.4 0.9 1
  As _ := 0
  Bs _ := 0
  cs _ := -2e-6
  kmat _ _ := 0
  lmat _ _ := 0
  Ru := 8.314

example : totalPressure (fun T r => demoQCPR.alphar T r (fun _ => 1)) demoQCPR.Ru 40 1000
    ≠ cubicPressure demoQCPR.Ru (demoQCPR.get_a 40 fun _ => 1) (demoQCPR.get_b 40 fun _ => 1)
        (1 + Real.sqrt 2) (1 - Real.sqrt 2) 40 (1 / 1000 + demoQCPR.get_c fun _ => 1) := by
  have hb : demoQCPR.get_b 40 (fun _ => 1) = 0.07780 * 44.5 * 8.314 / 2.7e6 := by
    simp [QCPR.get_b, QCPR.get_bi, demoQCPR]
  have hc : demoQCPR.get_c (fun _ => 1) = -2e-6 := by simp [QCPR.get_c, demoQCPR]
  intro he
  have := (QCPR_translation_wrong demoQCPR (fun _ => 1) 40 1000 (by norm_num [demoQCPR])
    (by norm_num) (by rw [hb]; norm_num) (by norm_num) (by rw [hc]; norm_num)
    (by rw [hb, hc]; norm_num)).mp he
  rw [hc] at this
  norm_num at this

end Teqp.Props

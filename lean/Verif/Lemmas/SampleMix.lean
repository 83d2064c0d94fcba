import Verif.Lemmas.MixVLE

/-! # A binary sample fluid with two coexisting phases, used to show hypotheses can be met -/

set_option autoImplicit false

open Teqp.Calc Teqp.Model Teqp.Spec Teqp.Lemmas Teqp.MixVLE Filter Topology

namespace Teqp.Sample

/-- Unlike pairs repel: `αʳ = κ T ρ x₀ x₁` with `κ = ln 2`. -/
noncomputable def demix : EOS (Fin 2) := ⟨fun T ρ x => Real.log 2 * T * (ρ * (x 0 * x 1)), fun _ => 8⟩

theorem demix_R (x : Fin 2 → ℝ) : demix.R x = 8 := rfl

theorem demix_smooth (T : ℝ) (ρ : Fin 2 → ℝ) (h : rhotot ρ ≠ 0) : SmoothAt demix T ρ := by
  refine ⟨h, ?_, contDiffAt_const⟩
  have hx : ∀ i : Fin 2, ContDiffAt ℝ 2 (fun p : ℝ × ℝ × (Fin 2 → ℝ) => p.2.2 i) (T, rhotot ρ, molefrac ρ) := fun i =>
    ContDiffAt.comp (g := fun y : Fin 2 → ℝ => y i) _ (contDiff_apply ℝ ℝ i).contDiffAt
      (contDiffAt_snd.comp _ contDiffAt_snd)
  have hr : ContDiffAt ℝ 2 (fun p : ℝ × ℝ × (Fin 2 → ℝ) => p.2.1) (T, rhotot ρ, molefrac ρ) :=
    contDiffAt_fst.comp _ contDiffAt_snd
  exact (contDiffAt_const.mul contDiffAt_fst).mul (hr.mul ((hx 0).mul (hx 1)))

theorem demix_Psir (T : ℝ) (ρ : Fin 2 → ℝ) (h : rhotot ρ ≠ 0) :
    Psir demix T ρ = 8 * Real.log 2 * T ^ 2 * (ρ 0 * ρ 1) := by
  simp only [Psir, demix, molefrac]
  field_simp

theorem rhotot_two (ρ : Fin 2 → ℝ) : rhotot ρ = ρ 0 + ρ 1 := by simp [rhotot]

theorem rhotot_update_ne (ρ : Fin 2 → ℝ) (h : rhotot ρ ≠ 0) (i : Fin 2) :
    ∀ᶠ t in 𝓝 (ρ i), rhotot (Function.update ρ i t) ≠ 0 := by
  have hc : ContinuousAt (fun t => rhotot (Function.update ρ i t)) (ρ i) := by
    simp only [rhotot_two]
    fin_cases i <;> simp [Function.update] <;> fun_prop
  have : rhotot (Function.update ρ i (ρ i)) ≠ 0 := by simpa using h
  exact hc.eventually_ne this

theorem demix_grad (T : ℝ) (ρ : Fin 2 → ℝ) (h : rhotot ρ ≠ 0) (i : Fin 2) :
    gradPsir demix T ρ i = 8 * Real.log 2 * T ^ 2 * ρ (1 - i) := by
  unfold gradPsir partialD
  have hd : HasDerivAt (fun t : ℝ => 8 * Real.log 2 * T ^ 2 * (t * ρ (1 - i))) (8 * Real.log 2 * T ^ 2 * (1 * ρ (1 - i)))
      (ρ i) := ((hasDerivAt_id (ρ i)).mul_const _).const_mul _
  rw [one_mul] at hd
  refine (hd.congr_of_eventuallyEq ?_).deriv
  filter_upwards [rhotot_update_ne ρ h i] with t ht
  rw [demix_Psir T _ ht]
  fin_cases i <;> simp [Function.update, mul_comm]

theorem demix_hess (T : ℝ) (ρ : Fin 2 → ℝ) (h : rhotot ρ ≠ 0) (i j : Fin 2) :
    hessPsir demix T ρ i j = if i = j then 0 else 8 * Real.log 2 * T ^ 2 := by
  unfold hessPsir partialD2
  have hd : HasDerivAt (fun t : ℝ => 8 * Real.log 2 * T ^ 2 * (Function.update ρ i t) (1 - j))
      (if i = j then 0 else 8 * Real.log 2 * T ^ 2) (ρ i) := by
    fin_cases i <;> fin_cases j <;> simp [Function.update, hasDerivAt_const]
    · exact ((hasDerivAt_id (ρ 0)).const_mul _).congr_deriv (by simp)
    · exact ((hasDerivAt_id (ρ 1)).const_mul _).congr_deriv (by simp)
  refine (hd.congr_of_eventuallyEq ?_).deriv
  filter_upwards [rhotot_update_ne ρ h i] with t ht
  exact demix_grad T _ ht j

/-- Mirror-image phases `(a, b)` and `(b, a)` coexist when `ln(a/b) = κ T (a - b)`. -/
theorem demix_coexist {T a b : ℝ} (ha : 0 < a) (hb : 0 < b)
    (h : Real.log a - Real.log b = Real.log 2 * T * (a - b)) : MixCoexist demix.alphar 8 T ![a, b] ![b, a] := by
  have h1 : rhotot ![a, b] ≠ 0 := by rw [rhotot_two]; simp; positivity
  have h2 : rhotot ![b, a] ≠ 0 := by rw [rhotot_two]; simp; positivity
  have s1 := demix_smooth T _ h1
  have s2 := demix_smooth T _ h2
  refine ⟨fun i => ?_, ?_⟩
  · have p1 : 0 < (![a, b] : Fin 2 → ℝ) i := by fin_cases i <;> simp [ha, hb]
    have p2 : 0 < (![b, a] : Fin 2 → ℝ) i := by fin_cases i <;> simp [ha, hb]
    rw [mixMu_eq s1 demix_R i p1, mixMu_eq s2 demix_R i p2, demix_grad _ _ h1, demix_grad _ _ h2]
    fin_cases i <;> simp
    · linear_combination (8 * T) * h
    · linear_combination (-8 * T) * h
  · rw [mixP_eq s1 demix_R, mixP_eq s2 demix_R]
    simp only [solverP, demix_Psir T _ h1, demix_Psir T _ h2, demix_grad _ _ h1, demix_grad _ _ h2, Fin.sum_univ_two,
      rhotot_two]
    simp
    ring

example : MixCoexist demix.alphar 8 1 ![2, 1] ![1, 2] := by
  refine demix_coexist two_pos one_pos ?_
  rw [Real.log_one]; ring

end Teqp.Sample

namespace Teqp.Sample

/-- A fluid whose first component alone has two states of equal chemical potential. -/
noncomputable def quad : EOS (Fin 2) := ⟨fun _ ρ x => ρ * (x 0 * x 1 - Real.log 2 / 2 * x 0 ^ 2), fun _ => 1⟩

theorem quad_R (x : Fin 2 → ℝ) : quad.R x = 1 := rfl

theorem quad_Psir (ρ : Fin 2 → ℝ) (h : rhotot ρ ≠ 0) :
    Psir quad 1 ρ = ρ 0 * ρ 1 - Real.log 2 / 2 * ρ 0 ^ 2 := by
  simp only [Psir, quad, molefrac]
  field_simp

theorem quad_grad (ρ : Fin 2 → ℝ) (h : rhotot ρ ≠ 0) :
    gradPsir quad 1 ρ 0 = ρ 1 - Real.log 2 * ρ 0 ∧ gradPsir quad 1 ρ 1 = ρ 0 := by
  unfold gradPsir partialD
  constructor
  · have hd := ((hasDerivAt_id (ρ 0)).mul_const (ρ 1)).sub (((hasDerivAt_id (ρ 0)).pow 2).const_mul (Real.log 2 / 2))
    refine ((hd.congr_of_eventuallyEq ?_).congr_deriv (?_ : _ = ρ 1 - Real.log 2 * ρ 0)).deriv
    · filter_upwards [rhotot_update_ne ρ h 0] with t ht
      rw [quad_Psir _ ht]
      simp
    · simp only [id]; simp; ring
  · have hd := ((hasDerivAt_id (ρ 1)).const_mul (ρ 0)).sub_const (Real.log 2 / 2 * ρ 0 ^ 2)
    refine ((hd.congr_of_eventuallyEq ?_).congr_deriv (?_ : _ = ρ 0)).deriv
    · filter_upwards [rhotot_update_ne ρ h 1] with t ht
      rw [quad_Psir _ ht]
      simp
    · simp

theorem quad_hess01 (ρ : Fin 2 → ℝ) (h : rhotot ρ ≠ 0) : hessPsir quad 1 ρ 0 1 = 1 := by
  unfold hessPsir partialD2
  refine ((hasDerivAt_id (ρ 0)).congr_of_eventuallyEq ?_).deriv
  filter_upwards [rhotot_update_ne ρ h 0] with t ht
  have := (quad_grad _ ht).2
  unfold gradPsir at this
  rw [this]
  simp

end Teqp.Sample

namespace Teqp.Sample

/-- A fluid whose first component condenses while the second is an ideal gas in either phase:
`αʳ = c₁ ρ x₀² + c₂ ρ² x₀³`. -/
noncomputable def dissolved : EOS (Fin 2) :=
  ⟨fun _ ρ x => (9 - 14 * Real.log 2) * (ρ * x 0 ^ 2) + (3 * Real.log 2 - 2) * (ρ ^ 2 * x 0 ^ 3), fun _ => 1⟩

theorem dissolved_R (x : Fin 2 → ℝ) : dissolved.R x = 1 := rfl

theorem dissolved_smooth (T : ℝ) (ρ : Fin 2 → ℝ) (h : rhotot ρ ≠ 0) : SmoothAt dissolved T ρ := by
  refine ⟨h, ?_, contDiffAt_const⟩
  have hx : ContDiffAt ℝ 2 (fun p : ℝ × ℝ × (Fin 2 → ℝ) => p.2.2 0) (T, rhotot ρ, molefrac ρ) :=
    ContDiffAt.comp (g := fun y : Fin 2 → ℝ => y 0) _ (contDiff_apply ℝ ℝ 0).contDiffAt
      (contDiffAt_snd.comp _ contDiffAt_snd)
  have hr : ContDiffAt ℝ 2 (fun p : ℝ × ℝ × (Fin 2 → ℝ) => p.2.1) (T, rhotot ρ, molefrac ρ) :=
    contDiffAt_fst.comp _ contDiffAt_snd
  exact (contDiffAt_const.mul (hr.mul (hx.pow 2))).add (contDiffAt_const.mul ((hr.pow 2).mul (hx.pow 3)))

theorem dissolved_Psir (T : ℝ) (ρ : Fin 2 → ℝ) (h : rhotot ρ ≠ 0) :
    Psir dissolved T ρ = T * ((9 - 14 * Real.log 2) * ρ 0 ^ 2 + (3 * Real.log 2 - 2) * ρ 0 ^ 3) := by
  simp only [Psir, dissolved, molefrac]
  field_simp

theorem dissolved_grad (T : ℝ) (ρ : Fin 2 → ℝ) (h : rhotot ρ ≠ 0) :
    gradPsir dissolved T ρ 0 = T * (2 * (9 - 14 * Real.log 2) * ρ 0 + 3 * (3 * Real.log 2 - 2) * ρ 0 ^ 2) ∧
    gradPsir dissolved T ρ 1 = 0 := by
  unfold gradPsir partialD
  constructor
  · have hd := ((((hasDerivAt_id (ρ 0)).pow 2).const_mul (9 - 14 * Real.log 2)).add
      (((hasDerivAt_id (ρ 0)).pow 3).const_mul (3 * Real.log 2 - 2))).const_mul T
    refine ((hd.congr_of_eventuallyEq ?_).congr_deriv ?_).deriv
    · filter_upwards [rhotot_update_ne ρ h 0] with t ht
      rw [dissolved_Psir _ _ ht]
      simp
    · simp only [id]; push_cast; norm_num; left; ring
  · refine ((hasDerivAt_const (ρ 1) (T * ((9 - 14 * Real.log 2) * ρ 0 ^ 2 + (3 * Real.log 2 - 2) * ρ 0 ^ 3))).congr_of_eventuallyEq
      ?_).deriv
    filter_upwards [rhotot_update_ne ρ h 1] with t ht
    rw [dissolved_Psir _ _ ht]
    simp

theorem dissolved_hess00 (T : ℝ) (ρ : Fin 2 → ℝ) (h : rhotot ρ ≠ 0) :
    hessPsir dissolved T ρ 0 0 = T * (2 * (9 - 14 * Real.log 2) + 6 * (3 * Real.log 2 - 2) * ρ 0) := by
  unfold hessPsir partialD2
  have hd := (((hasDerivAt_id (ρ 0)).const_mul (2 * (9 - 14 * Real.log 2))).add
      (((hasDerivAt_id (ρ 0)).pow 2).const_mul (3 * (3 * Real.log 2 - 2)))).const_mul T
  refine ((hd.congr_of_eventuallyEq ?_).congr_deriv ?_).deriv
  · filter_upwards [rhotot_update_ne ρ h 0] with t ht
    have := (dissolved_grad T _ ht).1
    unfold gradPsir at this
    rw [this]
    simp
  · simp only [id]; push_cast; norm_num; left; ring

theorem dissolved_p (T : ℝ) (ρ : Fin 2 → ℝ) (h : rhotot ρ ≠ 0) :
    mixP dissolved.alphar 1 T ρ =
      T * (ρ 0 + ρ 1 + (9 - 14 * Real.log 2) * ρ 0 ^ 2 + 2 * (3 * Real.log 2 - 2) * ρ 0 ^ 3) := by
  rw [mixP_eq (dissolved_smooth T ρ h) dissolved_R]
  simp only [solverP, dissolved_Psir T _ h, (dissolved_grad T _ h).1, (dissolved_grad T _ h).2, Fin.sum_univ_two,
    rhotot_two]
  ring

theorem dissolved_coexist {T r : ℝ} (hr : 0 < r) : MixCoexist dissolved.alphar 1 T ![2, r] ![1, r] := by
  have h1 : rhotot ![2, r] ≠ 0 := by rw [rhotot_two]; simp; positivity
  have h2 : rhotot ![1, r] ≠ 0 := by rw [rhotot_two]; simp; positivity
  have s1 := dissolved_smooth T _ h1
  have s2 := dissolved_smooth T _ h2
  refine ⟨fun i => ?_, ?_⟩
  · have p1 : 0 < (![2, r] : Fin 2 → ℝ) i := by fin_cases i <;> simp [hr]
    have p2 : 0 < (![1, r] : Fin 2 → ℝ) i := by fin_cases i <;> simp [hr]
    rw [mixMu_eq s1 dissolved_R i p1, mixMu_eq s2 dissolved_R i p2]
    fin_cases i
    · simp only [Fin.zero_eta, (dissolved_grad T _ h1).1, (dissolved_grad T _ h2).1]
      simp
      ring
    · simp only [Fin.mk_one, (dissolved_grad T _ h1).2, (dissolved_grad T _ h2).2]
      simp
  · rw [dissolved_p _ _ h1, dissolved_p _ _ h2]
    simp
    left
    ring

end Teqp.Sample

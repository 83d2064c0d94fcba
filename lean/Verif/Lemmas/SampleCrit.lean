import Verif.Lemmas.CritTrace
import Verif.Spec.Critical

/-! # A binary sample fluid with an explicit critical curve -/

set_option autoImplicit false

open Teqp.Calc Teqp.Model Teqp.Spec Teqp.Lemmas Teqp.CritTrace Filter Topology

namespace Teqp.Sample

/-- The fluid (gas constant 1) whose Helmholtz energy density is `P`. -/
noncomputable def ofTotal (P : ℝ → ℝ → ℝ → ℝ) : EOS (Fin 2) where
  alphar T r x := (P T (r * x 0) (r * x 1) - T * ∑ i, r * x i * (Real.log (r * x i) - 1)) / (T * r)
  R _ := 1

theorem tot_pos {ρ : Fin 2 → ℝ} (hρ : ∀ i, 0 < ρ i) : 0 < rhotot ρ := by
  simp only [rhotot, Fin.sum_univ_two]
  linarith [hρ 0, hρ 1]

theorem ofTotal_smooth {P : ℝ → ℝ → ℝ → ℝ} (hP : ContDiff ℝ 2 fun p : ℝ × ℝ × ℝ => P p.1 p.2.1 p.2.2) {T : ℝ}
    {ρ : Fin 2 → ℝ} (hT : T ≠ 0) (hρ : ∀ i, 0 < ρ i) : SmoothAt (ofTotal P) T ρ := by
  have h0 := tot_pos hρ
  refine ⟨h0.ne', ?_, contDiffAt_const⟩
  have hr : ContDiffAt ℝ 2 (fun p : ℝ × ℝ × (Fin 2 → ℝ) => p.2.1) (T, rhotot ρ, molefrac ρ) := by fun_prop
  have hx : ∀ i : Fin 2, ContDiffAt ℝ 2 (fun p : ℝ × ℝ × (Fin 2 → ℝ) => p.2.1 * p.2.2 i) (T, rhotot ρ, molefrac ρ) :=
    fun i => by fun_prop
  have hx0 : ∀ i, rhotot ρ * molefrac ρ i ≠ 0 := fun i => by
    unfold molefrac
    rw [mul_div_cancel₀ _ h0.ne']
    exact (hρ i).ne'
  have hT' : ContDiffAt ℝ 2 (fun p : ℝ × ℝ × (Fin 2 → ℝ) => p.1) (T, rhotot ρ, molefrac ρ) := contDiffAt_fst
  refine ContDiffAt.div ?_ (hT'.mul hr) (mul_ne_zero hT h0.ne')
  refine ContDiffAt.sub ?_ (hT'.mul (ContDiffAt.sum fun i _ => ?_))
  · exact ContDiffAt.comp (g := fun p : ℝ × ℝ × ℝ => P p.1 p.2.1 p.2.2)
      (f := fun p : ℝ × ℝ × (Fin 2 → ℝ) => (p.1, p.2.1 * p.2.2 0, p.2.1 * p.2.2 1)) _ hP.contDiffAt
      (hT'.prodMk ((hx 0).prodMk (hx 1)))
  · exact (hx i).mul (((hx i).log (hx0 i)).sub contDiffAt_const)

theorem ofTotal_psi (P : ℝ → ℝ → ℝ → ℝ) {T : ℝ} {ρ : Fin 2 → ℝ} (hT : T ≠ 0) (hρ : ∀ i, 0 < ρ i) :
    psiTotal (ofTotal P).alphar 1 T ρ = P T (ρ 0) (ρ 1) := by
  have h0 : ρ 0 + ρ 1 ≠ 0 := by linarith [hρ 0, hρ 1]
  simp only [psiTotal, ofTotal, Fin.sum_univ_two, mul_div_cancel₀ _ h0]
  field_simp
  ring

theorem ofTotal_Psir (P : ℝ → ℝ → ℝ → ℝ) {T : ℝ} {ρ : Fin 2 → ℝ} (hT : T ≠ 0) (hρ : ∀ i, 0 < ρ i) :
    Psir (ofTotal P) T ρ = P T (ρ 0) (ρ 1) - T * ∑ i, ρ i * (Real.log (ρ i) - 1) := by
  have h0 : ρ 0 + ρ 1 ≠ 0 := by linarith [hρ 0, hρ 1]
  simp only [Psir, ofTotal, rhotot, molefrac, Fin.sum_univ_two, mul_div_cancel₀ _ h0]
  field_simp

theorem pos_shift {ρ : Fin 2 → ℝ} (hρ : ∀ i, 0 < ρ i) (w : Fin 2 → ℝ) :
    ∀ᶠ σ : ℝ in 𝓝 0, ∀ i, 0 < ρ i + σ * w i := by
  rw [eventually_all]
  intro i
  have hc : ContinuousAt (fun σ : ℝ => ρ i + σ * w i) 0 := by fun_prop
  exact hc.eventually (lt_mem_nhds (by simpa using hρ i))

theorem ofTotal_dir (P : ℝ → ℝ → ℝ → ℝ) {T : ℝ} {ρ : Fin 2 → ℝ} (hT : T ≠ 0) (hρ : ∀ i, 0 < ρ i) (w : Fin 2 → ℝ) (k : ℕ) :
    dirDeriv (psiTotal (ofTotal P).alphar 1 T) ρ w k =
      iteratedDeriv k (fun σ : ℝ => P T (ρ 0 + σ * w 0) (ρ 1 + σ * w 1)) 0 := by
  unfold dirDeriv
  refine Filter.EventuallyEq.iteratedDeriv_eq k ?_
  filter_upwards [pos_shift hρ w] with σ hσ
  exact ofTotal_psi P hT hσ

theorem ofTotal_line {P : ℝ → ℝ → ℝ → ℝ} {n : ℕ} (hP : ContDiff ℝ n fun p : ℝ × ℝ × ℝ => P p.1 p.2.1 p.2.2) {T : ℝ}
    {ρ : Fin 2 → ℝ} (hT : T ≠ 0) (hρ : ∀ i, 0 < ρ i) (w : Fin 2 → ℝ) :
    ContDiffAt ℝ n (fun σ : ℝ => Psir (ofTotal P) T (fun i => ρ i + σ * w i)) 0 := by
  have hl : ∀ i, ContDiffAt ℝ n (fun σ : ℝ => ρ i + σ * w i) 0 := fun i => by fun_prop
  have : ContDiffAt ℝ n (fun σ : ℝ => P T (ρ 0 + σ * w 0) (ρ 1 + σ * w 1) -
      T * ∑ i, (ρ i + σ * w i) * (Real.log (ρ i + σ * w i) - 1)) 0 := by
    refine ContDiffAt.sub ?_ (contDiffAt_const.mul (ContDiffAt.sum fun i _ => ?_))
    · exact ContDiffAt.comp (g := fun p : ℝ × ℝ × ℝ => P p.1 p.2.1 p.2.2)
        (f := fun σ : ℝ => (T, ρ 0 + σ * w 0, ρ 1 + σ * w 1)) _ hP.contDiffAt
        (contDiffAt_const.prodMk ((hl 0).prodMk (hl 1)))
    · exact (hl i).mul (((hl i).log (by simpa using (hρ i).ne')).sub contDiffAt_const)
  refine this.congr_of_eventuallyEq ?_
  filter_upwards [pos_shift hρ w] with σ hσ
  exact ofTotal_Psir P hT hσ

/-- `psi1.tot` of the fluid. -/
theorem ofTotal_tot {P : ℝ → ℝ → ℝ → ℝ} (hP : ContDiff ℝ 4 fun p : ℝ × ℝ × ℝ => P p.1 p.2.1 p.2.2) {T : ℝ}
    {ρ : Fin 2 → ℝ} (hT : T ≠ 0) (hρ : ∀ i, 0 < ρ i) (w : Fin 2 → ℝ) {k : ℕ} (hk : 2 ≤ k) (hk4 : k ≤ 4) :
    psiTot (n := 0) (ofTotal P) T ρ w k = iteratedDeriv k (fun σ : ℝ => P T (ρ 0 + σ * w 0) (ρ 1 + σ * w 1)) 0 := by
  rw [psiTot_eq (n := 0) (R := 1) (fun _ => rfl) hρ hk hk4
    ((ofTotal_line (n := 4) (by exact_mod_cast hP) hT hρ w).of_le (by exact_mod_cast hk4))]
  exact ofTotal_dir P hT hρ w k

/-- A fluid with critical states `T, (2 - T, 2 - T)`. -/
noncomputable def bendP (T a b : ℝ) : ℝ :=
  (b - 1) ^ 2 / 2 + (a - 1) ^ 2 * (b - 1) / 2 + (a - 1) ^ 4 / 6 + (T - 1) * (a - 1) ^ 2 / 2 + (T - 1) * (a - 1) ^ 3 / 6

/-- The fluid of `bendP`. -/
noncomputable def bend : EOS (Fin 2) := ofTotal bendP

theorem bendP_contDiff {n : ℕ} : ContDiff ℝ n fun p : ℝ × ℝ × ℝ => bendP p.1 p.2.1 p.2.2 := by
  unfold bendP
  fun_prop

/-- The derivatives of `bendP` along a line. -/
noncomputable def bendD (T a b u v : ℝ) : ℕ → ℝ
  | 0 => bendP T a b
  | 1 => u * ((a - 1) * (b - 1) + 2 / 3 * (a - 1) ^ 3 + (T - 1) * (a - 1) + (T - 1) * (a - 1) ^ 2 / 2) +
      v * ((b - 1) + (a - 1) ^ 2 / 2)
  | 2 => u ^ 2 * ((b - 1) + 2 * (a - 1) ^ 2 + (T - 1) + (T - 1) * (a - 1)) + 2 * u * v * (a - 1) + v ^ 2
  | 3 => u ^ 3 * (4 * (a - 1) + (T - 1)) + 3 * u ^ 2 * v
  | 4 => 4 * u ^ 4
  | _ => 0

theorem bend_iter (T a b u v : ℝ) {k : ℕ} (hk : k ≤ 4) :
    iteratedDeriv k (fun σ : ℝ => bendP T (a + σ * u) (b + σ * v)) 0 = bendD T a b u v k := by
  have h := (iter_chain (fun k σ => bendD T (a + σ * u) (b + σ * v) u v k) 0 k fun j hj => Eventually.of_forall fun s => ?_)
    |>.eq_of_nhds
  · refine Eq.trans ?_ (h.trans ?_)
    · simp only [bendD]
    · simp
  · have ha : HasDerivAt (fun σ : ℝ => a + σ * u - 1) u s :=
      ((((hasDerivAt_id s).mul_const u).const_add a).sub_const 1).congr_deriv (by simp)
    have hb : HasDerivAt (fun σ : ℝ => b + σ * v - 1) v s :=
      ((((hasDerivAt_id s).mul_const v).const_add b).sub_const 1).congr_deriv (by simp)
    have hj4 : j < 4 := lt_of_lt_of_le hj hk
    interval_cases j
    · simp only [bendD, bendP]
      refine (((((hb.pow 2).div_const 2).add (((ha.pow 2).mul hb).div_const 2)).add ((ha.pow 4).div_const 6)).add
        (((ha.pow 2).const_mul (T - 1)).div_const 2)).add (((ha.pow 3).const_mul (T - 1)).div_const 6) |>.congr_deriv ?_
      simp
      ring
    · simp only [bendD]
      refine (((((ha.mul hb).add ((ha.pow 3).const_mul (2 / 3))).add (ha.const_mul (T - 1))).add
        (((ha.pow 2).const_mul (T - 1)).div_const 2)).const_mul u).add ((hb.add ((ha.pow 2).div_const 2)).const_mul v)
        |>.congr_deriv ?_
      simp
      ring
    · simp only [bendD]
      refine ((((hb.add ((ha.pow 2).const_mul 2)).add_const (T - 1)).add (ha.const_mul (T - 1))).const_mul (u ^ 2)).add
        (ha.const_mul (2 * u * v)) |>.add_const (v ^ 2) |>.congr_deriv ?_
      simp
      ring
    · simp only [bendD]
      refine (((ha.const_mul 4).add_const (T - 1)).const_mul (u ^ 3)).add_const (3 * u ^ 2 * v) |>.congr_deriv ?_
      ring

theorem bend_tot {T : ℝ} {ρ : Fin 2 → ℝ} (hT : T ≠ 0) (hρ : ∀ i, 0 < ρ i) (w : Fin 2 → ℝ) {k : ℕ} (hk : 2 ≤ k)
    (hk4 : k ≤ 4) : psiTot (n := 0) bend T ρ w k = bendD T (ρ 0) (ρ 1) (w 0) (w 1) k := by
  rw [← bend_iter _ _ _ _ _ hk4]
  exact ofTotal_tot (bendP_contDiff (n := 4)) hT hρ w hk hk4

theorem bend_smooth {T : ℝ} {ρ : Fin 2 → ℝ} (hT : T ≠ 0) (hρ : ∀ i, 0 < ρ i) : SmoothAt bend T ρ :=
  ofTotal_smooth (bendP_contDiff (n := 2)) hT hρ

theorem bend_dir {T : ℝ} {ρ : Fin 2 → ℝ} (hT : T ≠ 0) (hρ : ∀ i, 0 < ρ i) (w : Fin 2 → ℝ) {k : ℕ} (hk4 : k ≤ 4) :
    dirDeriv (psiTotal bend.alphar 1 T) ρ w k = bendD T (ρ 0) (ρ 1) (w 0) (w 1) k := by
  rw [← bend_iter _ _ _ _ _ hk4]
  exact ofTotal_dir bendP hT hρ w k

theorem bend_critical {T : ℝ} (h0 : 0 < T) (h2 : T < 2) :
    IsCritical (psiTotal bend.alphar 1) T (fun _ => 2 - T) := by
  have hρ : ∀ i : Fin 2, 0 < (fun _ : Fin 2 => 2 - T) i := fun _ => by simp; linarith
  refine ⟨fun w => ?_, ![1, T - 1], ⟨0, by simp⟩, ?_, ?_⟩
  · rw [bend_dir h0.ne' hρ w (by norm_num)]
    simp only [bendD]
    nlinarith [sq_nonneg (w 1 - (T - 1) * w 0)]
  · rw [bend_dir h0.ne' hρ _ (by norm_num)]
    simp [bendD]
    ring
  · rw [bend_dir h0.ne' hρ _ (by norm_num)]
    simp [bendD]
    ring

/-- The Hessian of the fluid. -/
theorem bend_hess {T : ℝ} {ρ : Fin 2 → ℝ} (hT : T ≠ 0) (hρ : ∀ i, 0 < ρ i) :
    critHess bend T ρ = !![(ρ 1 - 1) + 2 * (ρ 0 - 1) ^ 2 + (T - 1) + (T - 1) * (ρ 0 - 1), ρ 0 - 1; ρ 0 - 1, 1] := by
  have hq : ∀ w : Fin 2 → ℝ, qf (critHess bend T ρ) w = bendD T (ρ 0) (ρ 1) (w 0) (w 1) 2 := fun w => by
    rw [← bend_tot hT hρ w (by norm_num) (by norm_num)]
    exact (psiTot_two (n := 0) (bend_smooth hT hρ)).symm
  have hsym : critHess bend T ρ 1 0 = critHess bend T ρ 0 1 := (critHess_symm (bend_smooth hT hρ)).apply 0 1
  have h1 := hq ![1, 0]
  have h2 := hq ![0, 1]
  have h3 := hq ![1, 1]
  simp [qf, bendD] at h1 h2 h3
  ext i j
  fin_cases i <;> fin_cases j <;> simp <;> linarith

end Teqp.Sample

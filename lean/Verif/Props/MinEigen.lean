import Verif.Model.MinEigen
import Verif.Props.AbsentCritical

/-! # C191: the least eigenvalue of the Hessian and intrinsic stability -/

set_option autoImplicit false

namespace Teqp.Props
open Teqp Teqp.Model Teqp.Spec Teqp.Calc Teqp.Sample Teqp.Lemmas Teqp.CritTrace Finset Filter Topology

section
variable {n : ℕ} {m : EOS (Fin (n + 2))} {eig : EigSolver} {T R : ℝ} {ρ : Fin (n + 2) → ℝ}

theorem minEigenvalue_head {e : EigenData n} {l : ℝ} (h : eigenProblem m eig T ρ none = .ok e) (hl : e.values.head? = some l) : minEigenvalue m eig T ρ = .ok l := by
  unfold minEigenvalue
  rw [h, Outcome.bind_ok]
  cases hv : e.values with
  | nil => rw [hv] at hl; simp at hl
  | cons a t =>
    rw [hv] at hl
    simp only [List.head?_cons, Option.some.injEq] at hl
    simp [hl]

/-- **C191, the value**: the result is the least second derivative of the energy density over the unit directions. -/
theorem minEigenvalue_least (he : EigContract eig) (h : SmoothAt m T ρ) (hR : ∀ x, m.R x = R) (hρ : ∀ i, 0 < ρ i) :
    ∃ l, minEigenvalue m eig T ρ = .ok l ∧ (∀ w, l * ∑ i, w i ^ 2 ≤ dirDeriv (psiTotal m.alphar R T) ρ w 2) ∧
      ∃ u, ∑ i, u i ^ 2 = 1 ∧ dirDeriv (psiTotal m.alphar R T) ρ u 2 = l := by
  obtain ⟨e, -, he1, -⟩ := eigenProblem_frame he h (fun i => (hρ i).ne') none
  obtain ⟨hu, hl, -⟩ := eigenProblem_least he h hR hρ he1
  obtain ⟨l, -, hf⟩ := eigenProblem_ok he h (fun i => (hρ i).ne') he1
  obtain ⟨f1, f2, f3⟩ := isEigenFrame_iff.mp hf
  refine ⟨_, minEigenvalue_head he1 hl, fun w => ?_, e.v0, hu, rfl⟩
  have hv : dirDeriv (psiTotal m.alphar R T) ρ e.v0 2 = l 0 := by
    rw [dir_two h hR hρ]
    exact qf_col f1 f2 0
  rw [hv, dir_two h hR hρ]
  exact rayleigh f1 f2 f3 w

/-- **C191, intrinsic stability**: the sign of the result tells whether the energy density is convex at the state, strictly or not. -/
theorem minEigenvalue_sign (he : EigContract eig) (h : SmoothAt m T ρ) (hR : ∀ x, m.R x = R) (hρ : ∀ i, 0 < ρ i) :
    ∃ l, minEigenvalue m eig T ρ = .ok l ∧ (0 ≤ l ↔ ∀ w, 0 ≤ dirDeriv (psiTotal m.alphar R T) ρ w 2) ∧
      (0 < l ↔ ∀ w, (∃ i, w i ≠ 0) → 0 < dirDeriv (psiTotal m.alphar R T) ρ w 2) := by
  obtain ⟨l, h1, h2, u, hu, h3⟩ := minEigenvalue_least he h hR hρ
  refine ⟨l, h1, ⟨fun hl w => ?_, fun hw => h3 ▸ hw u⟩, fun hl w hw => ?_, fun hw => h3 ▸ hw u ?_⟩
  · exact (mul_nonneg hl (sum_nonneg fun i _ => sq_nonneg _)).trans (h2 w)
  · obtain ⟨i, hi⟩ := hw
    have : 0 < ∑ i, w i ^ 2 := sum_pos' (fun i _ => sq_nonneg _) ⟨i, mem_univ i, by positivity⟩
    exact (mul_pos hl this).trans_le (h2 w)
  · by_contra hz
    push Not at hz
    simp [hz] at hu

/-- **C191, several components absent**: refused. -/
theorem minEigenvalue_refuses (m : EOS (Fin (n + 2))) (eig : EigSolver) (T : ℝ) {i j : Fin (n + 2)} (hij : i ≠ j) (hi : ρ i = 0) (hj : ρ j = 0) :
    minEigenvalue m eig T ρ = .throws .stdInvalidArgument := by
  unfold minEigenvalue
  rw [eigenProblem_refuses m eig T none hij hi hj]
  rfl
end

/-- **C191, the listing**: the sign of the least eigenvalue is that of the merged mixture. -/
theorem minEigenvalue_listed {p q : ℕ} {f : Fin (p + 2) → Fin (q + 2)} {m' : EOS (Fin (p + 2))} {m : EOS (Fin (q + 2))} {eig : EigSolver} {T R : ℝ} {ρ : Fin (p + 2) → ℝ} (he : EigContract eig)
    (h : SameEOS f m' m) (hf : Function.Surjective f) (hR : ∀ x, m.R x = R) (hRT : 0 < R * T) (hρ : ∀ k, 0 < ρ k) (hsm : SmoothAt m T (gathered f ρ)) (hs : Lines3 m T (gathered f ρ)) :
    ∃ l' l, minEigenvalue m' eig T ρ = .ok l' ∧ minEigenvalue m eig T (gathered f ρ) = .ok l ∧ (0 ≤ l' ↔ 0 ≤ l) ∧ (0 < l' ↔ 0 < l) := by
  obtain ⟨l', a1, a2, a3⟩ := minEigenvalue_sign he (smooth_listed h hR hsm) (fun x => by rw [h.R, hR]) hρ
  obtain ⟨l, b1, b2, b3⟩ := minEigenvalue_sign he hsm hR (gathered_pos hf hρ)
  have hst := listing_stable h hf hR hRT hρ hs
  exact ⟨l', l, a1, b1, by rw [a2, b2, hst.1], by rw [a3, b3, hst.2]⟩

/-- **C191, an absent component**: the result is that of the mixture without it, whatever the eigen-solver. -/
theorem minEigenvalue_absent {n : ℕ} {k : Fin (n + 3)} {m' : EOS (Fin (n + 2))} {m : EOS (Fin (n + 3))} (h : SameEOS k.succAbove m' m) (eig : EigSolver) (T : ℝ) {ρ : Fin (n + 2) → ℝ}
    (hρ : ∀ i, ρ i ≠ 0) : minEigenvalue (n := n + 1) m eig T (k.insertNth (α := fun _ => ℝ) 0 ρ) = minEigenvalue m' eig T ρ := by
  rw [← gathered_insert]
  have h1 := eigenProblem_absent (n := n + 1) m eig T none (gathered_skip k ρ).1 (skip_present hρ)
  rw [hess_skip h] at h1
  have h2 : eigenProblem m' eig T ρ none = .ok ⟨List.ofFn (eig (n + 2) (critHess m' T ρ)).1, orient ρ (eig (n + 2) (critHess m' T ρ)).2⟩ := by
    unfold eigenProblem
    rw [if_pos (zeroCount_zero hρ)]
    rfl
  unfold minEigenvalue
  rw [h1, h2, Outcome.bind_ok, Outcome.bind_ok]

/-- **C191, one of two components absent**: the result is the slope of the isotherm of the other fluid divided by its density. -/
theorem minEigenvalue_pure {k : Fin 2} {m' : EOS (Fin 1)} {m : EOS (Fin 2)} (h : SameEOS k.succAbove m' m) {eig : EigSolver} (he : EigContract eig) {T R r : ℝ} (hR : ∀ x, m'.R x = R) (hr : 0 < r)
    (ha : ContDiffAt ℝ (3 : ℕ) (fun y => m'.alphar T y fun _ => 1) r) :
    minEigenvalue (n := 0) m eig T (k.insertNth (α := fun _ => ℝ) 0 fun _ => r) = .ok (deriv (fun y : ℝ => ptot m' T fun _ => y) r / r) := by
  rw [← gathered_insert]
  have h1 := eigenProblem_absent (n := 0) m eig T none (gathered_skip k fun _ => r).1 (skip_present fun _ => hr.ne')
  rw [hess_skip h] at h1
  obtain ⟨hH, hU, -⟩ := he 1 (critHess m' T fun _ => r) (by
    ext i j
    fin_cases i
    fin_cases j
    rfl)
  have hU := congrFun (congrFun hU 0) 0
  have hL := congrFun (congrFun hH 0) 0
  rw [Matrix.mul_apply] at hU
  rw [Matrix.mul_diagonal, Matrix.mul_apply] at hL
  simp only [Matrix.transpose_apply, Matrix.one_apply_eq, univ_unique, Fin.default_eq_zero, Fin.isValue, sum_singleton] at hU hL
  have hu0 : (eig 1 (critHess m' T fun _ => r)).2 0 0 ≠ 0 := by
    intro h0
    rw [h0] at hU
    norm_num at hU
  have hval : (eig 1 (critHess m' T fun _ => r)).1 0 = critHess m' T (fun _ => r) 0 0 := mul_right_cancel₀ hu0 (by rw [hL]; ring)
  have hc : critHess m' T (fun _ => r) 0 0 = deriv (fun y : ℝ => ptot m' T fun _ => y) r / r := by
    rw [← (pure_derivs hR hr ha).1, critHess, Matrix.of_apply, if_pos ⟨rfl, hr.ne'⟩, hR, add_comm]
    congr 1
    have hup (y : Fin 1 → ℝ) (t : ℝ) : Function.update y 0 t = fun _ => t := funext fun i => by rw [Subsingleton.elim i 0, Function.update_self]
    rw [iteratedDeriv_succ, iteratedDeriv_one]
    simp only [hessPsir, partialD2, partialD, hup]
  refine minEigenvalue_head h1 ?_
  rw [← hc, ← hval]
  simp [List.ofFn_succ]

/-! ## Examples -/

/-- At the critical state of the sample fluid with a component listed twice the least eigenvalue is zero. -/
example : minEigenvalue (n := 1) bendTwice spectralEig (3 / 2) ![1 / 8, 1 / 2, 3 / 8] = .ok 0 := by
  have hsm : SmoothAt bendTwice (3 / 2) ![1 / 8, 1 / 2, 3 / 8] := smooth_listed (p := 1) (q := 0) (R := 1) bendTwice_same (fun _ => rfl) (by
    rw [bendTwice_densities]
    exact bend_smooth (by norm_num) fun _ => by norm_num)
  obtain ⟨l, h1, h2, h3⟩ := minEigenvalue_sign (n := 1) (R := 1) spectralEig_contract hsm (fun _ => rfl) bendTwice_pos
  obtain ⟨hp, w, hw, hz, -⟩ := bendTwice_critical
  have h0 := h2.2 hp
  have hn : ¬ 0 < l := fun hl => (h3.1 hl w hw).ne' hz
  rw [h1, le_antisymm (not_lt.1 hn) h0]

/-- The ideal gas of two components. -/
noncomputable def gasTwo : EOS (Fin 2) := ⟨fun _ _ _ => 0, fun _ => 1⟩

/-- The ideal gas of three components. -/
noncomputable def gasThree : EOS (Fin 3) := ⟨fun _ _ _ => 0, fun _ => 1⟩

theorem gas_two {n : ℕ} {m : EOS (Fin (n + 2))} (hm : ∀ T r x, m.alphar T r x = 0) (hR : ∀ x, m.R x = 1) {ρ : Fin (n + 2) → ℝ} (hρ : ∀ i, 0 < ρ i) (w : Fin (n + 2) → ℝ) :
    dirDeriv (psiTotal m.alphar 1 1) ρ w 2 = ∑ i, w i ^ 2 / ρ i := by
  have e : (fun σ : ℝ => Psir m 1 (fun i => ρ i + σ * w i)) = fun _ => 0 := by
    funext σ
    simp [Psir, hm]
  rw [dir_ideal (m := m) hR hρ w le_rfl (by norm_num) (by rw [e]; exact contDiffAt_const), psi0_two hρ, PsirSigmaDeriv, e]
  simp

/-- **C191, the listing changes the value**: an ideal gas with densities 1 and 2, whose second component is listed as 1 + 1. -/
theorem minEigenvalue_value_false : ∃ (f : Fin 3 → Fin 2) (m' : EOS (Fin 3)) (m : EOS (Fin 2)) (ρ : Fin 3 → ℝ), SameEOS f m' m ∧ (∀ k, 0 < ρ k) ∧
    minEigenvalue (n := 1) m' spectralEig 1 ρ ≠ minEigenvalue (n := 0) m spectralEig 1 (gathered f ρ) := by
  have hg : gathered (![0, 1, 1] : Fin 3 → Fin 2) (fun _ => 1) = ![1, 2] := by
    funext i
    rw [gathered, sum_filter, Fin.sum_univ_three]
    fin_cases i <;> simp
    norm_num
  have hp : ∀ i : Fin 2, (0 : ℝ) < (![1, 2] : Fin 2 → ℝ) i := fun i => by fin_cases i <;> norm_num
  refine ⟨![0, 1, 1], gasThree, gasTwo, fun _ => 1, ⟨fun _ _ _ => rfl, fun _ => rfl⟩, fun _ => one_pos, ?_⟩
  rw [hg]
  obtain ⟨l', a1, -, u, hu, a3⟩ := minEigenvalue_least (n := 1) (m := gasThree) (R := 1) (T := 1) (ρ := fun _ => 1) spectralEig_contract
    ⟨by simp [rhotot], contDiffAt_const, contDiffAt_const⟩ (fun _ => rfl) (fun _ => one_pos)
  obtain ⟨l, b1, b2, -⟩ := minEigenvalue_least (n := 0) (m := gasTwo) (R := 1) (T := 1) (ρ := ![1, 2]) spectralEig_contract
    ⟨by simp [rhotot]; norm_num, contDiffAt_const, contDiffAt_const⟩ (fun _ => rfl) hp
  rw [gas_two (fun _ _ _ => rfl) (fun _ => rfl) fun _ => one_pos] at a3
  have h2 := b2 ![0, 1]
  rw [gas_two (fun _ _ _ => rfl) (fun _ => rfl) hp] at h2
  simp only [div_one, hu] at a3
  simp [Fin.sum_univ_two] at h2
  rw [a1, b1, ← a3]
  intro hc
  injection hc with hc
  rw [← hc] at h2
  norm_num at h2

/-- At the inflection of the isotherm of the remaining fluid the least eigenvalue of the pair is zero. -/
example (T : ℝ) : minEigenvalue (n := 0) flexPair spectralEig T ((1 : Fin 2).insertNth (α := fun _ => ℝ) 0 fun _ => 1) = .ok 0 := by
  rw [minEigenvalue_pure flexPair_same spectralEig_contract (R := 1) (fun _ => rfl) one_pos, (flexPure_inflection T).1, zero_div]
  unfold flexPure
  fun_prop

example (eig : EigSolver) (T : ℝ) : minEigenvalue (n := 1) (cubicListed (copyComponents prPair ![0, 1, 0])) eig T ((1 : Fin 3).insertNth (α := fun _ => ℝ) 0 ![3, 4]) =
    minEigenvalue (n := 0) (cubicListed (copyComponents (copyComponents prPair ![0, 1, 0]) (1 : Fin 3).succAbove)) eig T ![3, 4] :=
  minEigenvalue_absent (n := 0) (cubicListed_same _ _) eig T fun i => by fin_cases i <;> norm_num

example : minEigenvalue (n := 1) gasThree spectralEig 1 ![0, 5, 0] = .throws .stdInvalidArgument := minEigenvalue_refuses gasThree spectralEig 1 (i := 0) (j := 2) (by decide) rfl rfl

example : ∃ l' l, minEigenvalue (n := 1) bendTwice spectralEig (3 / 2) ![1 / 8, 1 / 2, 3 / 8] = .ok l' ∧
    minEigenvalue (n := 0) bend spectralEig (3 / 2) (gathered (![0, 1, 0] : Fin 3 → Fin 2) ![1 / 8, 1 / 2, 3 / 8]) = .ok l ∧ (0 ≤ l' ↔ 0 ≤ l) ∧ (0 < l' ↔ 0 < l) := by
  have hd := bendTwice_densities
  refine minEigenvalue_listed (p := 1) (q := 0) (R := 1) spectralEig_contract bendTwice_same bendTwice_onto (fun _ => rfl) (by norm_num) bendTwice_pos ?_ ?_
  · rw [hd]
    exact bend_smooth (by norm_num) fun _ => by norm_num
  · rw [hd]
    exact bend_line3 _ (by norm_num) fun _ => by norm_num

end Teqp.Props

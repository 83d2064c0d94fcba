import Verif.Props.ListedCritical

/-! # C190: a component that is absent, and the criticality conditions -/

set_option autoImplicit false

namespace Teqp.Props
open Teqp Teqp.Model Teqp.Spec Teqp.Calc Teqp.Sample Teqp.Lemmas Teqp.CritTrace Finset Filter Topology

/-- A component left out: its amount is zero and the others are as before. -/
theorem gathered_skip {n : ℕ} (k : Fin (n + 1)) (x : Fin n → ℝ) : gathered k.succAbove x k = 0 ∧ ∀ i, gathered k.succAbove x (k.succAbove i) = x i := by
  refine ⟨?_, fun i => ?_⟩
  · rw [gathered]
    refine sum_eq_zero fun i hi => absurd (mem_filter.1 hi).2 (Fin.succAbove_ne k i)
  · have : (univ.filter fun l => k.succAbove l = k.succAbove i) = {i} := by
      ext l
      simp only [mem_filter, mem_univ, true_and, mem_singleton]
      exact k.succAbove_right_injective.eq_iff
    rw [gathered, this, sum_singleton]

theorem gathered_insert {n : ℕ} (k : Fin (n + 1)) (x : Fin n → ℝ) : gathered k.succAbove x = k.insertNth (α := fun _ => ℝ) 0 x := by
  funext i
  refine Fin.succAboveCases k ?_ (fun j => ?_) i
  · rw [(gathered_skip k x).1, Fin.insertNth_apply_same]
  · rw [(gathered_skip k x).2, Fin.insertNth_apply_succAbove]

section
variable {n : ℕ} {k : Fin (n + 2)} {m' : EOS (Fin (n + 1))} {m : EOS (Fin (n + 2))}

/-- **C190, derived properties**: an absent component changes neither pressure, residual entropy nor the fugacity coefficients and partial molar volumes of the others. -/
theorem absent_properties (h : SameEOS k.succAbove m' m) (T : ℝ) (ρ : Fin (n + 1) → ℝ) :
    ptot m T (k.insertNth (α := fun _ => ℝ) 0 ρ) = ptot m' T ρ ∧ splus m T (k.insertNth (α := fun _ => ℝ) 0 ρ) = splus m' T ρ ∧
    ∀ i, fugacityCoefficient m T (k.insertNth (α := fun _ => ℝ) 0 ρ) (k.succAbove i) = fugacityCoefficient m' T ρ i ∧
      chempotVLE m T (k.insertNth (α := fun _ => ℝ) 0 ρ) (k.succAbove i) = chempotVLE m' T ρ i ∧
      partialMolarVolume m T (k.insertNth (α := fun _ => ℝ) 0 ρ) (k.succAbove i) = partialMolarVolume m' T ρ i := by
  rw [← gathered_insert]
  have hm := listing_mixture h T ρ
  refine ⟨hm.1.symm, hm.2.2.2.2.1.symm, fun i => ?_⟩
  have he := listing_entries h T ρ i i
  refine ⟨he.1.symm, ?_, he.2.2.2.2.2.2.symm⟩
  unfold chempotVLE
  simp only [h.grad, h.R, molefrac_gathered, (gathered_skip k ρ).2]

theorem hess_skip (h : SameEOS k.succAbove m' m) (T : ℝ) (ρ : Fin (n + 1) → ℝ) :
    (critHess m T (gathered k.succAbove ρ)).submatrix k.succAbove k.succAbove = critHess m' T ρ := by
  ext i j
  simp only [critHess, Matrix.submatrix_apply, Matrix.of_apply, (gathered_skip k ρ).2, h.hess, h.R, molefrac_gathered, k.succAbove_right_injective.eq_iff]

theorem skip_present {ρ : Fin (n + 1) → ℝ} (hρ : ∀ i, ρ i ≠ 0) : ∀ i, i ≠ k → gathered k.succAbove ρ i ≠ 0 := by
  intro i hi
  obtain ⟨j, rfl⟩ := Fin.exists_succAbove_eq hi
  rw [(gathered_skip k ρ).2]
  exact hρ j

theorem sigma_skip (h : SameEOS k.succAbove m' m) (T : ℝ) (ρ v : Fin (n + 1) → ℝ) (a : ℕ) :
    PsirSigmaDeriv m T (gathered k.succAbove ρ) (gathered k.succAbove v) a = PsirSigmaDeriv m' T ρ v a := by
  unfold PsirSigmaDeriv
  congr 1
  funext σ
  rw [h.Psir, gathered_add]
end

section
variable {n : ℕ} {k : Fin (n + 3)} {m' : EOS (Fin (n + 2))} {m : EOS (Fin (n + 3))}

theorem psi0_skip (R T : ℝ) (ρ v : Fin (n + 2) → ℝ) (a : ℕ) : psi0Deriv (n := n + 1) R T (gathered k.succAbove ρ) (gathered k.succAbove v) a = psi0Deriv R T ρ v a := by
  have e (φ : ℝ → ℝ → ℝ) : (∑ i, if gathered k.succAbove ρ i ≠ 0 then φ (gathered k.succAbove v i) (gathered k.succAbove ρ i) else 0) =
      ∑ i, if ρ i ≠ 0 then φ (v i) (ρ i) else 0 := by
    rw [Fin.sum_univ_succAbove _ k, (gathered_skip k ρ).1]
    simp [(gathered_skip k ρ).2, (gathered_skip k v).2]
  unfold psi0Deriv
  split
  · exact e fun x y => R * T * x ^ 2 / y
  · exact e fun x y => -R * T * x ^ 3 / y ^ 2
  · exact e fun x y => 2 * R * T * x ^ 4 / y ^ 3
  · rfl

theorem psiTot_sign (m' : EOS (Fin (n + 2))) (T : ℝ) (ρ v : Fin (n + 2) → ℝ) {s : ℝ} (hs : s = 1 ∨ s = -1) {a : ℕ} (ha : 2 ≤ a) (ha4 : a ≤ 4) :
    psiTot m' T ρ (fun i => v i * s) a = s ^ a * psiTot m' T ρ v a := by
  rcases hs with rfl | rfl
  · simp
  have e : PsirSigmaDeriv m' T ρ (fun i => v i * -1) a = (-1) ^ a * PsirSigmaDeriv m' T ρ v a := by
    unfold PsirSigmaDeriv
    have := iteratedDeriv_comp_neg a (fun σ : ℝ => Psir m' T fun i => ρ i + σ * v i) 0
    rw [neg_zero, smul_eq_mul] at this
    rw [← this]
    congr 1
    funext σ
    congr 1
    funext i
    ring
  have i0 : psi0Deriv (m'.R (molefrac ρ)) T ρ (fun i => v i * -1) a = (-1) ^ a * psi0Deriv (m'.R (molefrac ρ)) T ρ v a := by
    interval_cases a <;> simp only [psi0Deriv, mul_sum] <;> refine sum_congr rfl fun i _ => ?_ <;> split <;> ring
  rw [psiTot, psiTot, e, i0]
  ring

/-- **C190, criticality conditions**: with one component absent they are those of the mixture without it, up to the sign of the third derivative; no property of the eigen-solver is
needed. -/
theorem absent_conditions (h : SameEOS k.succAbove m' m) (eig : EigSolver) (T : ℝ) {ρ : Fin (n + 2) → ℝ} (hρ : ∀ i, ρ i ≠ 0) :
    ∃ (s a b : ℝ), (s = 1 ∨ s = -1) ∧ critConditions m' eig T ρ = .ok (a, b) ∧ critConditions (n := n + 1) m eig T (k.insertNth (α := fun _ => ℝ) 0 ρ) = .ok (a, s * b) := by
  rw [← gathered_insert]
  obtain ⟨s, hs, ho⟩ := orient_apply ρ (eig (n + 2) (critHess m' T ρ)).2
  have h1 := eigenProblem_absent (n := n + 1) m eig T none (gathered_skip k ρ).1 (skip_present hρ)
  rw [hess_skip h] at h1
  have h2 : eigenProblem m' eig T ρ none = .ok ⟨List.ofFn (eig (n + 2) (critHess m' T ρ)).1, orient ρ (eig (n + 2) (critHess m' T ρ)).2⟩ := by
    unfold eigenProblem
    rw [if_pos (zeroCount_zero hρ)]
    rfl
  have hv (U : Matrix (Fin (n + 2)) (Fin (n + 2)) ℝ) : (fun i => padded (n := n + 1) k U i 0) = gathered k.succAbove fun i => U i 0 := by
    rw [gathered_insert]
    funext i
    simp [padded]
  set u : Fin (n + 2) → ℝ := fun i => (eig (n + 2) (critHess m' T ρ)).2 i 0 with hu
  refine ⟨s, psiTot m' T ρ u 2, s * psiTot m' T ρ u 3, hs, ?_, ?_⟩
  · unfold critConditions getDerivs
    rw [h2]
    simp only [Outcome.bind_ok]
    have e : EigenData.v0 ⟨List.ofFn (eig (n + 2) (critHess m' T ρ)).1, orient ρ (eig (n + 2) (critHess m' T ρ)).2⟩ = fun i => u i * s := funext fun i => ho i 0
    rw [e, psiTot_sign m' T ρ u hs le_rfl (by norm_num), psiTot_sign m' T ρ u hs (by norm_num) (by norm_num)]
    rcases hs with rfl | rfl <;> norm_num
  · unfold critConditions getDerivs
    rw [h1]
    simp only [Outcome.bind_ok]
    have e : EigenData.v0 (n := n + 1) ⟨List.ofFn (eig (n + 2) (critHess m' T ρ)).1, alignFirst none (padded k (eig (n + 2) (critHess m' T ρ)).2)⟩ = gathered k.succAbove u :=
      hv _
    have t (a : ℕ) : psiTot (n := n + 1) m T (gathered k.succAbove ρ) (gathered k.succAbove u) a = psiTot m' T ρ u a := by
      rw [psiTot, psiTot, psi0_skip, sigma_skip h, h.R, molefrac_gathered]
    rw [e, t, t]
    rcases hs with rfl | rfl <;> norm_num
end

/-! ## One of two components absent: the critical point of the other -/

section
variable {k : Fin 2} {m' : EOS (Fin 1)} {m : EOS (Fin 2)}

theorem absent_pure_raw (h : SameEOS k.succAbove m' m) {eig : EigSolver} (he : EigContract eig) {T R : ℝ} (hR : ∀ x, m'.R x = R) {r : ℝ} (hr : r ≠ 0) :
    ∃ s : ℝ, (s = 1 ∨ s = -1) ∧ critConditions (n := 0) m eig T (gathered k.succAbove fun _ => r) =
      .ok (R * T / r + iteratedDeriv 2 (fun y => Psir m' T fun _ => y) r, s * (-(R * T) / r ^ 2 + iteratedDeriv 3 (fun y => Psir m' T fun _ => y) r)) := by
  have h1 := eigenProblem_absent (n := 0) m eig T none (gathered_skip k fun _ => r).1 (skip_present fun _ => hr)
  rw [hess_skip h] at h1
  obtain ⟨-, hU, -⟩ := he 1 (critHess m' T fun _ => r) (by
    ext i j
    fin_cases i
    fin_cases j
    rfl)
  have hU := congrFun (congrFun hU 0) 0
  rw [Matrix.mul_apply] at hU
  simp only [Matrix.transpose_apply, Matrix.one_apply_eq, univ_unique, Fin.default_eq_zero, Fin.isValue, sum_singleton] at hU
  set s := (eig 1 (critHess m' T fun _ => r)).2 0 0 with hs
  have hs1 : s = 1 ∨ s = -1 := by
    have : (s - 1) * (s + 1) = 0 := by linarith
    rcases mul_eq_zero.mp this with h | h
    · left; linarith
    · right; linarith
  refine ⟨s, hs1, ?_⟩
  unfold critConditions getDerivs
  rw [h1]
  simp only [Outcome.bind_ok]
  have e : EigenData.v0 (n := 0) ⟨List.ofFn (eig 1 (critHess m' T fun _ => r)).1, alignFirst none (padded k (eig 1 (critHess m' T fun _ => r)).2)⟩ =
      gathered k.succAbove fun _ => s := by
    rw [gathered_insert]
    funext i
    have : (fun j => (eig 1 (critHess m' T fun _ => r)).2 j 0) = fun _ : Fin 1 => s := funext fun j => by rw [hs, Subsingleton.elim j 0]
    simp [EigenData.v0, alignFirst, padded, this]
  have hi (φ : ℝ → ℝ → ℝ) : (∑ i : Fin 2, if gathered k.succAbove (fun _ : Fin 1 => r) i ≠ 0 then φ (gathered k.succAbove (fun _ : Fin 1 => s) i) (gathered k.succAbove (fun _ : Fin 1 => r) i) else 0) =
      φ s r := by
    rw [Fin.sum_univ_succAbove _ k, (gathered_skip k _).1]
    simp [(gathered_skip k _).2, hr]
  have hd (a : ℕ) : PsirSigmaDeriv m' T (fun _ => r) (fun _ => s) a = s ^ a * iteratedDeriv a (fun y => Psir m' T fun _ => y) r := by
    unfold PsirSigmaDeriv
    rcases hs1 with e1 | e1
    · rw [e1]
      have := iteratedDeriv_comp_const_add a (fun y : ℝ => Psir m' T fun _ => y) r
      simp only [mul_one, this, add_zero, one_pow, one_mul]
    · rw [e1]
      have := iteratedDeriv_comp_const_sub a (fun y : ℝ => Psir m' T fun _ => y) r
      simp only [mul_neg, mul_one, ← sub_eq_add_neg, this, sub_zero, smul_eq_mul]
  have hR2 : m.R (molefrac (gathered k.succAbove fun _ => r)) = R := by rw [molefrac_gathered, ← h.R, hR]
  rw [e]
  simp only [psiTot, hR2, sigma_skip h, hd, psi0Deriv]
  rw [hi fun x y => R * T * x ^ 2 / y, hi fun x y => -R * T * x ^ 3 / y ^ 2]
  congr 2
  · rcases hs1 with e1 | e1 <;> rw [e1] <;> norm_num
  · rcases hs1 with e1 | e1 <;> rw [e1] <;> norm_num
    ring

/-- The derivatives of the residual energy density and of the pressure of a pure fluid. -/
theorem pure_derivs {m' : EOS (Fin 1)} {T R r : ℝ} (hR : ∀ x, m'.R x = R) (hr : 0 < r) (ha : ContDiffAt ℝ (3 : ℕ) (fun y => m'.alphar T y fun _ => 1) r) :
    let p := fun y : ℝ => ptot m' T fun _ => y
    R * T / r + iteratedDeriv 2 (fun y => Psir m' T fun _ => y) r = deriv p r / r ∧
    -(R * T) / r ^ 2 + iteratedDeriv 3 (fun y => Psir m' T fun _ => y) r = (iteratedDeriv 2 p r - deriv p r / r) / r := by
  intro p
  set A : ℕ → ℝ → ℝ := fun j => iteratedDeriv j fun y => m'.alphar T y fun _ => 1 with hA
  have hAd (j : ℕ) (hj : j < 3) : ∀ᶠ y in 𝓝 r, HasDerivAt (A j) (A (j + 1) y) y := by
    filter_upwards [differentiableAt_iter ha hj] with y hy
    have := hy.hasDerivAt
    rwa [← iteratedDeriv_succ] at this
  have hx (y : ℝ) (hy : 0 < y) : molefrac (fun _ : Fin 1 => y) = fun _ => 1 := by
    funext i
    simp [molefrac, rhotot, hy.ne']
  have hp : ∀ᶠ y in 𝓝 r, 0 < y := lt_mem_nhds hr
  have hg0 : (fun y => Psir m' T fun _ : Fin 1 => y) =ᶠ[𝓝 r] fun y => R * T * (y * A 0 y) := by
    filter_upwards [hp] with y hy
    simp only [Psir, hx y hy, hR, hA, iteratedDeriv_zero]
    simp [rhotot]
    ring
  have hp0 : p =ᶠ[𝓝 r] fun y => R * T * (y + y ^ 2 * A 1 y) := by
    filter_upwards [hp] with y hy
    simp only [p, ptot, pr, hx y hy, hR, hA, iteratedDeriv_one]
    simp [rhotot]
    ring
  let F : ℕ → ℝ → ℝ := fun j y => match j with
    | 0 => R * T * (y * A 0 y)
    | 1 => R * T * (A 0 y + y * A 1 y)
    | 2 => R * T * (2 * A 1 y + y * A 2 y)
    | 3 => R * T * (3 * A 2 y + y * A 3 y)
    | _ => 0
  let G : ℕ → ℝ → ℝ := fun j y => match j with
    | 0 => R * T * (y + y ^ 2 * A 1 y)
    | 1 => R * T * (1 + 2 * y * A 1 y + y ^ 2 * A 2 y)
    | 2 => R * T * (2 * A 1 y + 4 * y * A 2 y + y ^ 2 * A 3 y)
    | _ => 0
  have hF : ∀ j < 3, ∀ᶠ y in 𝓝 r, HasDerivAt (F j) (F (j + 1) y) y := by
    intro j hj
    filter_upwards [hAd 0 (by norm_num), hAd 1 (by norm_num), hAd 2 (by norm_num)] with y h0 h1 h2
    interval_cases j
    · refine (((hasDerivAt_id y).mul h0).const_mul (R * T)).congr_deriv ?_
      simp only [F, id]
      ring
    · refine ((h0.add ((hasDerivAt_id y).mul h1)).const_mul (R * T)).congr_deriv ?_
      simp only [F, id]
      ring
    · refine (((h1.const_mul 2).add ((hasDerivAt_id y).mul h2)).const_mul (R * T)).congr_deriv ?_
      simp only [F, id]
      ring
  have hG : ∀ j < 2, ∀ᶠ y in 𝓝 r, HasDerivAt (G j) (G (j + 1) y) y := by
    intro j hj
    filter_upwards [hAd 0 (by norm_num), hAd 1 (by norm_num), hAd 2 (by norm_num)] with y h0 h1 h2
    interval_cases j
    · refine (((hasDerivAt_id y).add (((hasDerivAt_id y).pow 2).mul h1)).const_mul (R * T)).congr_deriv ?_
      simp only [G, id, Pi.pow_apply]
      ring
    · refine ((((hasDerivAt_const y (1 : ℝ)).add (((hasDerivAt_id y).const_mul 2).mul h1)).add (((hasDerivAt_id y).pow 2).mul h2)).const_mul (R * T)).congr_deriv ?_
      simp only [G, id, Pi.pow_apply]
      ring
  have g2 : iteratedDeriv 2 (fun y => Psir m' T fun _ => y) r = F 2 r := by
    rw [hg0.iteratedDeriv_eq]
    exact (iter_chain F r 2 fun j hj => hF j (by omega)).eq_of_nhds
  have g3 : iteratedDeriv 3 (fun y => Psir m' T fun _ => y) r = F 3 r := by
    rw [hg0.iteratedDeriv_eq]
    exact (iter_chain F r 3 hF).eq_of_nhds
  have p1 : deriv p r = G 1 r := by
    rw [hp0.deriv_eq]
    exact (hG 0 (by norm_num)).self_of_nhds.deriv
  have p2 : iteratedDeriv 2 p r = G 2 r := by
    rw [hp0.iteratedDeriv_eq]
    exact (iter_chain G r 2 hG).eq_of_nhds
  rw [g2, g3, p1, p2]
  have := hr.ne'
  simp only [F, G]
  constructor
  · field_simp
    ring
  · field_simp
    ring

/-- **C190, the pure fluid**: with one of two components absent the conditions are `p'/ρ` and, up to sign, `(p'' - p'/ρ)/ρ` of the other fluid. -/
theorem absent_pure (h : SameEOS k.succAbove m' m) {eig : EigSolver} (he : EigContract eig) {T R r : ℝ} (hR : ∀ x, m'.R x = R) (hr : 0 < r)
    (ha : ContDiffAt ℝ (3 : ℕ) (fun y => m'.alphar T y fun _ => 1) r) :
    let p := fun y : ℝ => ptot m' T fun _ => y
    ∃ s : ℝ, (s = 1 ∨ s = -1) ∧ critConditions (n := 0) m eig T (k.insertNth (α := fun _ => ℝ) 0 fun _ => r) = .ok (deriv p r / r, s * ((iteratedDeriv 2 p r - deriv p r / r) / r)) := by
  intro p
  obtain ⟨s, hs, hc⟩ := absent_pure_raw h he hR hr.ne' (T := T)
  refine ⟨s, hs, ?_⟩
  rw [← gathered_insert, hc, (pure_derivs hR hr ha).1, (pure_derivs hR hr ha).2]

/-- **C190, the critical point of the pure fluid**: the conditions vanish exactly where the isotherm of the other fluid has a horizontal inflection. -/
theorem absent_pure_critical (h : SameEOS k.succAbove m' m) {eig : EigSolver} (he : EigContract eig) {T R r : ℝ} (hR : ∀ x, m'.R x = R) (hr : 0 < r)
    (ha : ContDiffAt ℝ (3 : ℕ) (fun y => m'.alphar T y fun _ => 1) r) :
    critConditions (n := 0) m eig T (k.insertNth (α := fun _ => ℝ) 0 fun _ => r) = .ok (0, 0) ↔
      deriv (fun y : ℝ => ptot m' T fun _ => y) r = 0 ∧ iteratedDeriv 2 (fun y : ℝ => ptot m' T fun _ => y) r = 0 := by
  obtain ⟨s, hs, hc⟩ := absent_pure h he hR hr ha (eig := eig)
  have hs0 : s ≠ 0 := by rcases hs with rfl | rfl <;> norm_num
  rw [hc, Outcome.ok.injEq, Prod.mk.injEq]
  simp only [mul_eq_zero, div_eq_zero_iff, hs0, hr.ne', or_false, false_or]
  constructor
  · rintro ⟨h1, h2⟩
    rw [h1] at h2
    exact ⟨h1, by simpa using h2⟩
  · rintro ⟨h1, h2⟩
    rw [h1, h2]
    simp
end

/-! ## Examples -/

example (eig : EigSolver) (T : ℝ) : ∃ s a b : ℝ, (s = 1 ∨ s = -1) ∧ critConditions (n := 0) (cubicListed (copyComponents (copyComponents prPair ![0, 1, 0]) (1 : Fin 3).succAbove)) eig T ![3, 4] = .ok (a, b) ∧
    critConditions (n := 1) (cubicListed (copyComponents prPair ![0, 1, 0])) eig T ((1 : Fin 3).insertNth (α := fun _ => ℝ) 0 ![3, 4]) = .ok (a, s * b) :=
  absent_conditions (n := 0) (cubicListed_same _ _) eig T fun i => by fin_cases i <;> norm_num

example (T : ℝ) (r : Fin 1 → ℝ) : ptot (cubicListed prPair) T ((0 : Fin 2).insertNth (α := fun _ => ℝ) 0 r) = ptot (cubicListed (copyComponents prPair (0 : Fin 2).succAbove)) T r :=
  (absent_properties (n := 0) (cubicListed_same _ _) T r).1

/-- A fluid with `p = T (ρ - ρ² + ρ³/3)`. -/
noncomputable def flexPure : EOS (Fin 1) := ⟨fun _ r x => -(r * x 0) + (r * x 0) ^ 2 / 6, fun _ => 1⟩

/-- The fluid with a second component that repels it. -/
noncomputable def flexPair : EOS (Fin 2) := ⟨fun _ r x => -(r * x 0) + (r * x 0) ^ 2 / 6 + r ^ 2 * x 0 * x 1, fun _ => 1⟩

theorem flexPair_same : SameEOS (1 : Fin 2).succAbove flexPure flexPair := by
  refine ⟨fun T r x => ?_, fun _ => rfl⟩
  have h1 := (gathered_skip (1 : Fin 2) x).1
  have h0 : gathered (1 : Fin 2).succAbove x 0 = x 0 := (gathered_skip (1 : Fin 2) x).2 0
  simp only [flexPure, flexPair, h0, h1]
  ring

theorem flexPure_pressure (T : ℝ) {y : ℝ} (hy : 0 < y) : (ptot flexPure T fun _ => y) = T * (y - y ^ 2 + y ^ 3 / 3) := by
  have hx : molefrac (fun _ : Fin 1 => y) = fun _ => 1 := by
    funext i
    simp [molefrac, rhotot, hy.ne']
  have hd : deriv (fun r : ℝ => -(r * 1) + (r * 1) ^ 2 / 6) y = -1 + y / 3 := by
    have : HasDerivAt (fun r : ℝ => -(r * 1) + (r * 1) ^ 2 / 6) (-1 + y / 3) y := by
      have h1 := (((hasDerivAt_id y).mul_const 1).neg.add ((((hasDerivAt_id y).mul_const 1).pow 2).div_const 6))
      refine h1.congr_deriv ?_
      simp
      ring
    exact this.deriv
  have hr : rhotot (fun _ : Fin 1 => y) = y := by simp [rhotot]
  simp only [ptot, pr, hx, hr, flexPure, hd]
  ring

/-- The inflection at `ρ = 1`. -/
theorem flexPure_inflection (T : ℝ) : deriv (fun y : ℝ => ptot flexPure T fun _ => y) 1 = 0 ∧ iteratedDeriv 2 (fun y : ℝ => ptot flexPure T fun _ => y) 1 = 0 := by
  have hp : (fun y : ℝ => ptot flexPure T fun _ => y) =ᶠ[𝓝 1] fun y => T * (y - y ^ 2 + y ^ 3 / 3) := by
    filter_upwards [lt_mem_nhds (one_pos : (0 : ℝ) < 1)] with y hy
    exact flexPure_pressure T hy
  have h1 (y : ℝ) : HasDerivAt (fun y : ℝ => T * (y - y ^ 2 + y ^ 3 / 3)) (T * (1 - 2 * y + y ^ 2)) y := by
    refine ((((hasDerivAt_id y).sub ((hasDerivAt_id y).pow 2)).add (((hasDerivAt_id y).pow 3).div_const 3)).const_mul T).congr_deriv ?_
    simp
  have h2 (y : ℝ) : HasDerivAt (fun y : ℝ => T * (1 - 2 * y + y ^ 2)) (T * (-2 + 2 * y)) y := by
    refine ((((hasDerivAt_const y (1 : ℝ)).sub ((hasDerivAt_id y).const_mul 2)).add ((hasDerivAt_id y).pow 2)).const_mul T).congr_deriv ?_
    simp
  constructor
  · rw [hp.deriv_eq, (h1 1).deriv]
    ring
  · rw [hp.iteratedDeriv_eq, iteratedDeriv_succ, iteratedDeriv_one, funext fun y => (h1 y).deriv, (h2 1).deriv]
    ring

/-- Also at this state of the pair the conditions vanish, whatever the interaction with the absent component. -/
example (T : ℝ) : critConditions (n := 0) flexPair spectralEig T ((1 : Fin 2).insertNth (α := fun _ => ℝ) 0 fun _ => 1) = .ok (0, 0) := by
  refine (absent_pure_critical flexPair_same spectralEig_contract (R := 1) (fun _ => rfl) one_pos ?_).2 (flexPure_inflection T)
  unfold flexPure
  fun_prop

end Teqp.Props

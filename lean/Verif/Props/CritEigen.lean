import Verif.Lemmas.SampleCrit
import Verif.Lemmas.Outcome
import Mathlib.Analysis.Matrix.Spectrum
import Mathlib.Data.Fin.Tuple.Sort

/-! # Eigenvectors of the Hessian and the critical conditions (C42, C70) -/

set_option autoImplicit false

open Teqp.Calc Teqp.Model Teqp.Spec Teqp.Lemmas Teqp.CritTrace Teqp.Sample Filter Topology

namespace Teqp.Props

/-- Columns are orthonormal eigenvectors for the eigenvalues in increasing order. -/
def IsEigenFrame {n : ℕ} (H : Matrix (Fin n) (Fin n) ℝ) (l : Fin n → ℝ) (U : Matrix (Fin n) (Fin n) ℝ) : Prop :=
  (∀ i k, ∑ j, H i j * U j k = l k * U i k) ∧ (∀ k k', ∑ i, U i k * U i k' = if k = k' then 1 else 0) ∧
    ∀ k k', k ≤ k' → l k ≤ l k'

theorem isEigenFrame_iff {n : ℕ} {H U : Matrix (Fin n) (Fin n) ℝ} {l : Fin n → ℝ} :
    IsEigenFrame H l U ↔ H * U = U * Matrix.diagonal l ∧ U.transpose * U = 1 ∧ Monotone l := by
  constructor
  · rintro ⟨h1, h2, h3⟩
    refine ⟨?_, ?_, fun a b => h3 a b⟩
    · ext i k
      rw [Matrix.mul_diagonal, Matrix.mul_apply, h1, mul_comm]
    · ext k k'
      rw [Matrix.mul_apply]
      simp only [Matrix.transpose_apply, h2, Matrix.one_apply]
  · rintro ⟨h1, h2, h3⟩
    refine ⟨fun i k => col_eig h1 i k, fun k k' => ?_, fun a b => @h3 a b⟩
    have := congrFun (congrFun h2 k) k'
    rw [Matrix.mul_apply] at this
    simpa only [Matrix.transpose_apply, Matrix.one_apply] using this

/-- A solver meeting the contract, from the spectral theorem. -/
noncomputable def spectralEig : EigSolver := fun _ H =>
  @dite _ H.IsHermitian (Classical.propDecidable _)
    (fun h => (h.eigenvalues ∘ Tuple.sort h.eigenvalues,
      Matrix.of fun i k => h.eigenvectorBasis (Tuple.sort h.eigenvalues k) i))
    fun _ => (0, 0)

theorem spectralEig_contract : EigContract spectralEig := by
  intro n H hH
  have h : H.IsHermitian := by
    rw [Matrix.IsHermitian, Matrix.conjTranspose_eq_transpose_of_trivial]
    exact hH
  have he : spectralEig n H = (h.eigenvalues ∘ Tuple.sort h.eigenvalues,
      Matrix.of fun i k => h.eigenvectorBasis (Tuple.sort h.eigenvalues k) i) := by
    unfold spectralEig
    rw [dif_pos h]
  rw [he]
  refine isEigenFrame_iff.mp ⟨fun i k => ?_, fun k k' => ?_, fun k k' hk => Tuple.monotone_sort h.eigenvalues hk⟩
  · have := congrFun (h.mulVec_eigenvectorBasis (Tuple.sort h.eigenvalues k)) i
    simpa [Matrix.mulVec, dotProduct] using this
  · have := h.eigenvectorBasis.inner_eq_ite (Tuple.sort h.eigenvalues k) (Tuple.sort h.eigenvalues k')
    simp only [PiLp.inner_apply, EmbeddingLike.apply_eq_iff_eq] at this
    rw [← this]
    refine Finset.sum_congr rfl fun i _ => ?_
    simp [mul_comm]

theorem one_pos' : ∀ i : Fin 2, (0 : ℝ) < (fun _ : Fin 2 => (1 : ℝ)) i := fun _ => one_pos

/-- Reversing columns keeps the frame. -/
theorem IsEigenFrame.reverse {n : ℕ} {H U : Matrix (Fin n) (Fin n) ℝ} {l : Fin n → ℝ} (h : IsEigenFrame H l U)
    (s : Fin n → ℝ) (hs : ∀ k, s k = 1 ∨ s k = -1) : IsEigenFrame H l (fun i k => U i k * s k) := by
  obtain ⟨h1, h2, h3⟩ := h
  refine ⟨fun i k => ?_, fun k k' => ?_, h3⟩
  · have : ∑ j, H i j * (U j k * s k) = (∑ j, H i j * U j k) * s k := by
      rw [Finset.sum_mul]
      exact Finset.sum_congr rfl fun j _ => by ring
    rw [this, h1]
    ring
  · have : ∑ i, U i k * s k * (U i k' * s k') = (∑ i, U i k * U i k') * (s k * s k') := by
      rw [Finset.sum_mul]
      exact Finset.sum_congr rfl fun j _ => by ring
    rw [this, h2]
    split_ifs with hk
    · subst hk
      rcases hs k with h | h <;> rw [h] <;> norm_num
    · ring

theorem zeroCount_zero {n : ℕ} {ρ : Fin n → ℝ} (h : ∀ i, ρ i ≠ 0) : zeroCount ρ = 0 := by
  unfold zeroCount
  rw [Finset.card_eq_zero, Finset.filter_eq_empty_iff]
  exact fun i _ => h i

theorem orient_apply {n : ℕ} (ρ : Fin (n + 2) → ℝ) (U : Matrix (Fin (n + 2)) (Fin (n + 2)) ℝ) :
    ∃ s : ℝ, (s = 1 ∨ s = -1) ∧ ∀ i j, orient ρ U i j = U i j * s := by
  by_cases hc : ∃ r, U r (minIndex ρ) < 0
  · refine ⟨-1, Or.inr rfl, fun i j => ?_⟩
    simp only [orient, Matrix.of_apply]
    rw [if_pos hc]
  · refine ⟨1, Or.inl rfl, fun i j => ?_⟩
    simp only [orient, Matrix.of_apply]
    rw [if_neg hc, mul_one]

theorem alignFirst_apply {n : ℕ} (align : Option (Fin (n + 2) → ℝ)) (U : Matrix (Fin (n + 2)) (Fin (n + 2)) ℝ) :
    ∃ s : Fin (n + 2) → ℝ, (∀ j, s j = 1 ∨ s j = -1) ∧ (∀ j, j ≠ 0 → s j = 1) ∧
      ∀ i j, alignFirst align U i j = U i j * s j := by
  cases align with
  | none => exact ⟨fun _ => 1, fun _ => Or.inl rfl, fun _ _ => rfl, fun i j => by simp [alignFirst]⟩
  | some a =>
    refine ⟨fun j => @ite _ (j = 0 ∧ ∑ r, U r 0 * a r < 0) (Classical.propDecidable _) (-1) 1, fun j => ?_,
      fun j hj => ?_, fun i j => ?_⟩
    · simp only
      split_ifs
      · exact Or.inr rfl
      · exact Or.inl rfl
    · simp only [hj, false_and, if_false]
    · simp only [alignFirst, Matrix.of_apply]
      by_cases hc : j = 0 ∧ ∑ r, U r 0 * a r < 0
      · rw [if_pos hc, if_pos hc]
      · rw [if_neg hc, if_neg hc, mul_one]

theorem orient_frame {n : ℕ} {H U : Matrix (Fin (n + 2)) (Fin (n + 2)) ℝ} {l : Fin (n + 2) → ℝ} (ρ : Fin (n + 2) → ℝ)
    (h : IsEigenFrame H l U) : IsEigenFrame H l (orient ρ U) := by
  obtain ⟨s, hs, hu⟩ := orient_apply ρ U
  rw [show orient ρ U = fun i j => U i j * s from funext fun i => funext fun j => hu i j]
  exact h.reverse (fun _ => s) fun _ => hs

theorem alignFirst_frame {n : ℕ} {H U : Matrix (Fin (n + 2)) (Fin (n + 2)) ℝ} {l : Fin (n + 2) → ℝ}
    (align : Option (Fin (n + 2) → ℝ)) (h : IsEigenFrame H l U) : IsEigenFrame H l (alignFirst align U) := by
  obtain ⟨s, hs, -, hu⟩ := alignFirst_apply align U
  rw [show alignFirst align U = fun i j => U i j * s j from funext fun i => funext fun j => hu i j]
  exact h.reverse s hs

theorem alignFirst_dot {n : ℕ} (a : Fin (n + 2) → ℝ) (U : Matrix (Fin (n + 2)) (Fin (n + 2)) ℝ) :
    0 ≤ ∑ i, alignFirst (some a) U i 0 * a i := by
  simp only [alignFirst, Matrix.of_apply, true_and]
  by_cases hc : ∑ r, U r 0 * a r < 0
  · have : ∑ i, (U i 0 * -1) * a i = -∑ i, U i 0 * a i := by
      rw [← Finset.sum_neg_distrib]
      exact Finset.sum_congr rfl fun i _ => by ring
    simp only [if_pos hc]
    rw [this]
    linarith
  · simp only [if_neg hc]
    linarith

/-- **C70** With all components present, `eigen_problem` returns an orthonormal eigenframe of the Hessian with the
eigenvalues in increasing order, the first vector being turned towards the requested direction. -/
theorem eigenProblem_frame {n : ℕ} {m : EOS (Fin (n + 2))} {eig : EigSolver} {T : ℝ} {ρ : Fin (n + 2) → ℝ}
    (he : EigContract eig) (h : SmoothAt m T ρ) (hρ : ∀ i, ρ i ≠ 0) (align : Option (Fin (n + 2) → ℝ)) :
    ∃ e l, eigenProblem m eig T ρ align = .ok e ∧ e.values = List.ofFn l ∧
      IsEigenFrame (fun i j => hessPsir m T ρ i j + if i = j then m.R (molefrac ρ) * T / ρ i else 0) l e.cols ∧
      ∀ a, align = some a → 0 ≤ ∑ i, e.v0 i * a i := by
  refine ⟨_, (eig (n + 2) (critHess m T ρ)).1, by unfold eigenProblem; rw [if_pos (zeroCount_zero hρ)], rfl, ?_, ?_⟩
  · have hH : (fun i j => hessPsir m T ρ i j + if i = j then m.R (molefrac ρ) * T / ρ i else 0) = critHess m T ρ := by
      funext i j
      simp [critHess, hρ]
    rw [hH]
    exact alignFirst_frame _ (orient_frame _ (isEigenFrame_iff.mpr (he _ _ (critHess_symm h))))
  · rintro a rfl
    exact alignFirst_dot a _

/-- A fluid with Hessian `diag(0, 1)`, asked to follow the second component backwards. -/
example : ∃ e l, eigenProblem (n := 0) bend spectralEig 1 (fun _ => 1) (some ![-1, 2]) = .ok e ∧ e.values = List.ofFn l ∧
    IsEigenFrame (fun i j => hessPsir bend 1 (fun _ => 1) i j +
      if i = j then bend.R (molefrac fun _ => 1) * 1 / 1 else 0) l e.cols ∧
    ∀ a, some ![-1, 2] = some a → 0 ≤ ∑ i, e.v0 i * a i :=
  eigenProblem_frame spectralEig_contract (bend_smooth one_ne_zero one_pos') (fun _ => one_ne_zero) _

/-- The frame for `critHess`. -/
theorem eigenProblem_ok {n : ℕ} {m : EOS (Fin (n + 2))} {eig : EigSolver} {T : ℝ} {ρ : Fin (n + 2) → ℝ}
    {align : Option (Fin (n + 2) → ℝ)} {e : EigenData n}
    (he : EigContract eig) (h : SmoothAt m T ρ) (hρ : ∀ i, ρ i ≠ 0) (hr : eigenProblem m eig T ρ align = .ok e) :
    ∃ l, e.values = List.ofFn l ∧ IsEigenFrame (critHess m T ρ) l e.cols := by
  unfold eigenProblem at hr
  rw [if_pos (zeroCount_zero hρ)] at hr
  injection hr with hr
  subst hr
  exact ⟨_, rfl, alignFirst_frame _ (orient_frame _ (isEigenFrame_iff.mpr (he _ _ (critHess_symm h))))⟩

theorem line_two {n : ℕ} {m : EOS (Fin n)} {T : ℝ} {ρ v : Fin n → ℝ} (h : SmoothAt m T ρ) :
    ContDiffAt ℝ (2 : ℕ) (fun σ : ℝ => Psir m T (fun i => ρ i + σ * v i)) 0 := by
  have hl : ContDiffAt ℝ 2 (fun σ : ℝ => fun i => ρ i + σ * v i) 0 := by fun_prop
  exact ContDiffAt.comp (g := Psir m T) (f := fun σ : ℝ => fun i => ρ i + σ * v i) 0
    (by rw [shift_zero]; exact contDiffAt_Psir_rho h) hl

/-- The second derivative along a direction is the quadratic form of `critHess`. -/
theorem dir_two {n : ℕ} {m : EOS (Fin (n + 2))} {T R : ℝ} {ρ : Fin (n + 2) → ℝ} (h : SmoothAt m T ρ)
    (hR : ∀ x, m.R x = R) (hρ : ∀ i, 0 < ρ i) (w : Fin (n + 2) → ℝ) :
    dirDeriv (psiTotal m.alphar R T) ρ w 2 = qf (critHess m T ρ) w := by
  rw [← psiTot_two h]
  exact (psiTot_eq hR hρ le_rfl (by norm_num) (line_two h)).symm

/-- **C70** `v0` is a unit direction in which the second derivative of the Helmholtz energy density is least, and the
first eigenvalue is that derivative. -/
theorem eigenProblem_least {n : ℕ} {m : EOS (Fin (n + 2))} {eig : EigSolver} {T R : ℝ} {ρ : Fin (n + 2) → ℝ}
    {align : Option (Fin (n + 2) → ℝ)} {e : EigenData n}
    (he : EigContract eig) (h : SmoothAt m T ρ) (hR : ∀ x, m.R x = R) (hρ : ∀ i, 0 < ρ i)
    (hr : eigenProblem m eig T ρ align = .ok e) :
    ∑ i, e.v0 i ^ 2 = 1 ∧ e.values.head? = some (dirDeriv (psiTotal m.alphar R T) ρ e.v0 2) ∧
      ∀ w, ∑ i, w i ^ 2 = 1 → dirDeriv (psiTotal m.alphar R T) ρ e.v0 2 ≤ dirDeriv (psiTotal m.alphar R T) ρ w 2 := by
  obtain ⟨l, hl, hf⟩ := eigenProblem_ok he h (fun i => (hρ i).ne') hr
  obtain ⟨h1, h2, h3⟩ := isEigenFrame_iff.mp hf
  have hv : dirDeriv (psiTotal m.alphar R T) ρ e.v0 2 = l 0 := by
    rw [dir_two h hR hρ]
    exact qf_col h1 h2 0
  refine ⟨col_unit h2 0, ?_, fun w hw => ?_⟩
  · rw [hl, hv]
    simp [List.ofFn_succ]
  · rw [hv, dir_two h hR hρ]
    have := rayleigh h1 h2 h3 w
    rwa [hw, mul_one] at this

example : ∃ e : EigenData 0, eigenProblem bend spectralEig 1 (fun _ => 1) none = .ok e ∧ ∑ i, e.v0 i ^ 2 = 1 ∧
    ∀ w, ∑ i, w i ^ 2 = 1 → dirDeriv (psiTotal bend.alphar 1 1) (fun _ => 1) e.v0 2 ≤
      dirDeriv (psiTotal bend.alphar 1 1) (fun _ => 1) w 2 := by
  obtain ⟨e, l, h, -⟩ := eigenProblem_frame (n := 0) spectralEig_contract (bend_smooth one_ne_zero one_pos')
    (fun _ => one_ne_zero) none
  obtain ⟨h1, -, h3⟩ := eigenProblem_least (n := 0) (R := 1) spectralEig_contract (bend_smooth one_ne_zero one_pos')
    (fun _ => rfl) one_pos' h
  exact ⟨e, h, h1, h3⟩

/-- **C70** The entries 2, 3 and 4 of `get_derivs` are the derivatives of the total Helmholtz energy density along `v0`. -/
theorem getDerivs_along {n : ℕ} {m : EOS (Fin (n + 2))} {eig : EigSolver} {T R : ℝ} {ρ : Fin (n + 2) → ℝ}
    {align : Option (Fin (n + 2) → ℝ)} {d : ℕ → ℝ} {e : EigenData n} (hR : ∀ x, m.R x = R) (hρ : ∀ i, 0 < ρ i)
    (hr : getDerivs m eig T ρ align = .ok (d, e)) {k : ℕ} (hk : 2 ≤ k) (hk4 : k ≤ 4)
    (hs : ContDiffAt ℝ k (fun σ : ℝ => Psir m T (fun i => ρ i + σ * e.v0 i)) 0) :
    d k = dirDeriv (psiTotal m.alphar R T) ρ e.v0 k := by
  unfold getDerivs at hr
  obtain ⟨e', _, h2⟩ := Outcome.bind_eq_ok.mp hr
  injection h2 with h2
  injection h2 with h3 h4
  subst h4
  rw [← h3]
  exact psiTot_eq hR hρ hk hk4 hs

theorem getDerivs_ok {n : ℕ} {m : EOS (Fin (n + 2))} {eig : EigSolver} {T : ℝ} {ρ : Fin (n + 2) → ℝ}
    {align : Option (Fin (n + 2) → ℝ)} {d : ℕ → ℝ} {e : EigenData n}
    (hr : getDerivs m eig T ρ align = .ok (d, e)) : eigenProblem m eig T ρ align = .ok e ∧ d = psiTot m T ρ e.v0 := by
  unfold getDerivs at hr
  obtain ⟨e', h1, h2⟩ := Outcome.bind_eq_ok.mp hr
  injection h2 with h2
  injection h2 with h3 h4
  subst h4
  exact ⟨h1, h3.symm⟩

example : ∃ d e, getDerivs (n := 0) bend spectralEig 1 (fun _ => 1) none = .ok (d, e) ∧
    d 4 = dirDeriv (psiTotal bend.alphar 1 1) (fun _ => 1) e.v0 4 := by
  obtain ⟨e, l, h, -⟩ := eigenProblem_frame (n := 0) spectralEig_contract (bend_smooth one_ne_zero one_pos')
    (fun _ => one_ne_zero) none
  have hd : getDerivs (n := 0) bend spectralEig 1 (fun _ => 1) none = .ok (psiTot bend 1 (fun _ => 1) e.v0, e) := by
    unfold getDerivs
    rw [h]
    rfl
  exact ⟨_, e, hd, getDerivs_along (n := 0) (R := 1) (fun _ => rfl) one_pos' hd (by norm_num) le_rfl
    (ofTotal_line (n := 4) bendP_contDiff one_ne_zero one_pos' _)⟩

/-! ## Absent components -/

/-- **C70** Two or more absent components are refused. -/
theorem eigenProblem_refuses {n : ℕ} (m : EOS (Fin (n + 2))) (eig : EigSolver) (T : ℝ) {ρ : Fin (n + 2) → ℝ}
    (align : Option (Fin (n + 2) → ℝ)) {i j : Fin (n + 2)} (hij : i ≠ j) (hi : ρ i = 0) (hj : ρ j = 0) :
    eigenProblem m eig T ρ align = .throws .stdInvalidArgument := by
  have h2 : 2 ≤ zeroCount ρ := by
    unfold zeroCount
    have : ({i, j} : Finset (Fin (n + 2))) ⊆ Finset.univ.filter fun k => ρ k = 0 := by
      intro k hk
      simp only [Finset.mem_insert, Finset.mem_singleton] at hk
      rcases hk with rfl | rfl <;> simp [hi, hj]
    calc 2 = ({i, j} : Finset (Fin (n + 2))).card := (Finset.card_pair hij).symm
      _ ≤ _ := Finset.card_le_card this
  unfold eigenProblem
  rw [if_neg (by omega), if_neg (by omega)]

example (m : EOS (Fin 3)) (eig : EigSolver) :
    eigenProblem (n := 1) m eig 300 ![0, 5, 0] none = .throws .stdInvalidArgument :=
  eigenProblem_refuses m eig 300 none (i := 0) (j := 2) (by decide) rfl rfl

theorem zeroCount_one {n : ℕ} {ρ : Fin n → ℝ} {k : Fin n} (hk : ρ k = 0) (h : ∀ i, i ≠ k → ρ i ≠ 0) :
    zeroCount ρ = 1 := by
  unfold zeroCount
  rw [Finset.card_eq_one]
  refine ⟨k, ?_⟩
  ext i
  simp only [Finset.mem_filter, Finset.mem_univ, true_and, Finset.mem_singleton]
  exact ⟨fun hi => by_contra fun hne => h i hne hi, fun hi => hi ▸ hk⟩

theorem find_absent {n : ℕ} {ρ : Fin n → ℝ} {k : Fin n} (hk : ρ k = 0) (h : ∀ i, i ≠ k → ρ i ≠ 0) :
    (List.finRange n).find? (fun i => @decide (ρ i = 0) (Classical.propDecidable _)) = some k := by
  cases hf : (List.finRange n).find? (fun i => @decide (ρ i = 0) (Classical.propDecidable _)) with
  | none =>
    rw [List.find?_eq_none] at hf
    exact absurd hk (by simpa using hf k (List.mem_finRange k))
  | some i =>
    have hi := List.find?_some hf
    have hi' : ρ i = 0 := by simpa using hi
    by_contra hne
    exact h i (fun h' => hne (by rw [h'])) hi'

theorem eigenProblem_absent {n : ℕ} (m : EOS (Fin (n + 2))) (eig : EigSolver) (T : ℝ) {ρ : Fin (n + 2) → ℝ}
    (align : Option (Fin (n + 2) → ℝ)) {k : Fin (n + 2)} (hk : ρ k = 0) (h : ∀ i, i ≠ k → ρ i ≠ 0) :
    eigenProblem m eig T ρ align =
      .ok ⟨List.ofFn (eig (n + 1) ((critHess m T ρ).submatrix k.succAbove k.succAbove)).1,
        alignFirst align (padded k (eig (n + 1) ((critHess m T ρ).submatrix k.succAbove k.succAbove)).2)⟩ := by
  unfold eigenProblem
  have h1 := zeroCount_one hk h
  rw [if_neg (by omega), if_pos h1]
  simp only [find_absent hk h]

/-- **C70** In a binary mixture with one absent component the first vector points along the present component, the second
along the absent one, and the only eigenvalue is the Hessian entry of the present component. -/
theorem eigenProblem_dilute {m : EOS (Fin 2)} {eig : EigSolver} {T : ℝ} {ρ : Fin 2 → ℝ} {k j : Fin 2}
    (he : EigContract eig) (h : SmoothAt m T ρ) (hkj : k ≠ j) (hk : ρ k = 0) (hj : ρ j ≠ 0)
    (align : Option (Fin 2 → ℝ)) :
    ∃ e : EigenData 0, eigenProblem m eig T ρ align = .ok e ∧
      e.values = [hessPsir m T ρ j j + m.R (molefrac ρ) * T / ρ j] ∧ e.v0 k = 0 ∧ (e.v0 j = 1 ∨ e.v0 j = -1) ∧
      e.v1 k = 1 ∧ e.v1 j = 0 ∧ ∀ a, align = some a → 0 ≤ e.v0 0 * a 0 + e.v0 1 * a 1 := by
  have hne : ∀ i, i ≠ k → ρ i ≠ 0 := fun i hi => by
    have : i = j := by omega
    rw [this]; exact hj
  set S := (critHess m T ρ).submatrix k.succAbove k.succAbove with hS
  have hsucc : k.succAbove 0 = j := by
    fin_cases k <;> fin_cases j <;> simp_all
  obtain ⟨h1, h2, -⟩ := he 1 S (by
    rw [hS]
    exact (critHess_symm h).submatrix _)
  have hU := congrFun (congrFun h2 0) 0
  have hL := congrFun (congrFun h1 0) 0
  rw [Matrix.mul_apply] at hU
  rw [Matrix.mul_diagonal, Matrix.mul_apply] at hL
  simp only [Matrix.transpose_apply, Matrix.one_apply_eq, Finset.univ_unique, Fin.default_eq_zero, Fin.isValue,
    Finset.sum_singleton] at hU hL
  set u := (eig 1 S).2 0 0 with hu
  have hu0 : u ≠ 0 := by intro h0; rw [h0] at hU; norm_num at hU
  have hval : (eig 1 S).1 0 = hessPsir m T ρ j j + m.R (molefrac ρ) * T / ρ j := by
    have : S 0 0 = (eig 1 S).1 0 := mul_right_cancel₀ hu0 (by rw [hL]; ring)
    rw [← this, hS, Matrix.submatrix_apply, hsucc]
    simp [critHess, hj]
  have hus : u = 1 ∨ u = -1 := by
    have : (u - 1) * (u + 1) = 0 := by linarith
    rcases mul_eq_zero.mp this with h | h
    · left; linarith
    · right; linarith
  obtain ⟨sg, hsg, hs1, hg⟩ := alignFirst_apply align (padded k (eig 1 S).2)
  refine ⟨_, eigenProblem_absent m eig T align hk hne, ?_, ?_, ?_, ?_, ?_, ?_⟩
  · rw [← hS, ← hval]
    simp [List.ofFn_succ]
  all_goals rw [← hS]
  · have hp : padded k (eig 1 S).2 k 0 = 0 := by simp [padded]
    exact (hg k 0).trans (by rw [hp, zero_mul])
  · have hp : padded k (eig 1 S).2 j 0 = u := by
      simp only [padded, Matrix.of_apply, if_true]
      rw [← hsucc]
      simp [hu]
    have := hg j 0
    rw [hp] at this
    change alignFirst align (padded k (eig 1 S).2) j 0 = 1 ∨ alignFirst align (padded k (eig 1 S).2) j 0 = -1
    rw [this]
    rcases hus with h | h <;> rcases hsg 0 with h' | h' <;> rw [h, h'] <;> norm_num
  · have hp : padded k (eig 1 S).2 k 1 = 1 := by simp [padded]
    exact (hg k 1).trans (by rw [hp, hs1 1 (by decide), mul_one])
  · have hp : padded k (eig 1 S).2 j 1 = 0 := by simp [padded, hkj.symm]
    exact (hg j 1).trans (by rw [hp, zero_mul])
  · rintro a rfl
    have := alignFirst_dot a (padded k (eig 1 S).2)
    rw [Fin.sum_univ_two] at this
    exact this

/-- A fluid with `Ψʳ = ab`, second component absent. -/
noncomputable def crossFluid : EOS (Fin 2) := ⟨fun T ρ x => ρ * (x 0 * x 1) / T, fun _ => 1⟩

theorem crossFluid_smooth : SmoothAt crossFluid 2 ![3, 0] := by
  refine ⟨by simp [rhotot], ?_, contDiffAt_const⟩
  have h2 : (2 : ℝ) ≠ 0 := two_ne_zero
  refine ContDiffAt.div ?_ contDiffAt_fst h2
  fun_prop

example : ∃ e : EigenData 0, eigenProblem crossFluid spectralEig 2 ![3, 0] (some ![-1, 0]) = .ok e ∧
    e.values = [hessPsir crossFluid 2 ![3, 0] 0 0 + 1 * 2 / 3] ∧ e.v0 1 = 0 ∧ (e.v0 0 = 1 ∨ e.v0 0 = -1) ∧
    e.v1 1 = 1 ∧ e.v1 0 = 0 ∧ ∀ a, some ![-1, 0] = some a → 0 ≤ e.v0 0 * a 0 + e.v0 1 * a 1 :=
  eigenProblem_dilute spectralEig_contract crossFluid_smooth (k := 1) (j := 0) (by decide) rfl (by norm_num) _

/-- **C70** With three or more components and one of them absent the second vector is zero, so the returned columns are
not a frame. -/
theorem eigenProblem_absent_multi {n : ℕ} (m : EOS (Fin (n + 3))) (eig : EigSolver) (T : ℝ) {ρ : Fin (n + 3) → ℝ}
    (align : Option (Fin (n + 3) → ℝ)) {k : Fin (n + 3)} (hk : ρ k = 0) (h : ∀ i, i ≠ k → ρ i ≠ 0) :
    ∃ e : EigenData (n + 1), eigenProblem m eig T ρ align = .ok e ∧ ∀ i, e.v1 i = 0 := by
  refine ⟨_, eigenProblem_absent (n := n + 1) m eig T align hk h, fun i => ?_⟩
  have h10 : ¬((1 : Fin (n + 3)) = 0) := by simp
  have h1l : ¬((1 : Fin (n + 3)) = Fin.last (n + 2)) := by
    rw [Fin.ext_iff]; simp [Fin.last]
  have hp : ∀ U : Matrix (Fin (n + 2)) (Fin (n + 2)) ℝ, padded (n := n + 1) k U i 1 = 0 := fun U => by
    simp only [padded, Matrix.of_apply, if_neg h10]
    exact if_neg fun h => h1l h.1
  obtain ⟨sg, -, -, hg⟩ := alignFirst_apply align
    (padded (n := n + 1) k (eig (n + 2) ((critHess m T ρ).submatrix k.succAbove k.succAbove)).2)
  exact (hg i 1).trans (by rw [hp, zero_mul])

example (m : EOS (Fin 3)) : ∃ e : EigenData 1, eigenProblem m spectralEig 300 ![4, 0, 5] none = .ok e ∧ ∀ i, e.v1 i = 0 :=
  eigenProblem_absent_multi (n := 0) m spectralEig 300 none (k := 1) rfl (by
    intro i hi
    fin_cases i
    · norm_num
    · simp at hi
    · norm_num)

/-! ## The critical conditions -/

theorem contDiffAt_dir {n k : ℕ} {m : EOS (Fin (n + 2))} {T R : ℝ} {ρ w : Fin (n + 2) → ℝ} (hR : ∀ x, m.R x = R)
    (hρ : ∀ i, 0 < ρ i) (hs : ContDiffAt ℝ k (fun σ : ℝ => Psir m T (fun i => ρ i + σ * w i)) 0) :
    ContDiffAt ℝ k (fun σ : ℝ => psiTotal m.alphar R T (fun i => ρ i + σ * w i)) 0 := by
  have e : (fun σ : ℝ => psiTotal m.alphar R T (fun i => ρ i + σ * w i)) = fun σ : ℝ =>
      R * T * ∑ i, (ρ i + σ * w i) * (Real.log (ρ i + σ * w i) - 1) + Psir m T (fun i => ρ i + σ * w i) := by
    funext σ
    simp only [psiTotal, Psir, hR]
    unfold molefrac rhotot
    ring
  rw [e]
  refine ContDiffAt.add (contDiffAt_const.mul (ContDiffAt.sum fun i _ => ?_)) hs
  have h1 : ContDiffAt ℝ k (fun σ : ℝ => ρ i + σ * w i) 0 := by fun_prop
  exact h1.mul ((h1.log (by simpa using (hρ i).ne')).sub contDiffAt_const)

theorem differentiableAt_iter {f : ℝ → ℝ} {x : ℝ} {n k : ℕ} (h : ContDiffAt ℝ n f x) (hk : k < n) :
    ∀ᶠ s in 𝓝 x, DifferentiableAt ℝ (iteratedDeriv k f) s := by
  filter_upwards [h.eventually (by simp)] with s hs
  rw [iteratedDeriv_eq_equiv_comp]
  exact (ContinuousMultilinearMap.piFieldEquiv ℝ (Fin k) ℝ).symm.differentiable.differentiableAt.comp s
    (hs.differentiableAt_iteratedFDeriv (by exact_mod_cast hk))

theorem iteratedDeriv_scale {f : ℝ → ℝ} {n : ℕ} (h : ContDiffAt ℝ n f 0) (c : ℝ) :
    iteratedDeriv n (fun σ => f (c * σ)) 0 = c ^ n * iteratedDeriv n f 0 := by
  have hc : Tendsto (fun σ : ℝ => c * σ) (𝓝 0) (𝓝 0) := by
    have : ContinuousAt (fun σ : ℝ => c * σ) 0 := by fun_prop
    simpa [ContinuousAt] using this
  have := (iter_chain (fun k σ => c ^ k * iteratedDeriv k f (c * σ)) 0 n fun k hk => ?_).eq_of_nhds
  · simpa using this
  · filter_upwards [hc.eventually (differentiableAt_iter h hk)] with s hs
    have hl : HasDerivAt (fun σ : ℝ => c * σ) c s := by simpa using (hasDerivAt_id s).const_mul c
    have h2 := (hs.hasDerivAt.comp s hl).const_mul (c ^ k)
    refine h2.congr_deriv ?_
    rw [iteratedDeriv_succ, pow_succ]
    ring

theorem dirDeriv_smul {n k : ℕ} {m : EOS (Fin (n + 2))} {T R : ℝ} {ρ w : Fin (n + 2) → ℝ} (hR : ∀ x, m.R x = R)
    (hρ : ∀ i, 0 < ρ i) (hs : ContDiffAt ℝ k (fun σ : ℝ => Psir m T (fun i => ρ i + σ * w i)) 0) (c : ℝ) :
    dirDeriv (psiTotal m.alphar R T) ρ (fun i => c * w i) k = c ^ k * dirDeriv (psiTotal m.alphar R T) ρ w k := by
  unfold dirDeriv
  rw [← iteratedDeriv_scale (contDiffAt_dir hR hρ hs) c]
  congr 1
  funext σ
  congr 1
  funext i
  ring

/-- **C42** Criticality conditions that vanish mean a critical state. -/
theorem critConditions_sound {n : ℕ} {m : EOS (Fin (n + 2))} {eig : EigSolver} {T R : ℝ} {ρ : Fin (n + 2) → ℝ}
    (he : EigContract eig) (h : SmoothAt m T ρ) (hR : ∀ x, m.R x = R) (hρ : ∀ i, 0 < ρ i)
    (hs : ∀ w : Fin (n + 2) → ℝ, ContDiffAt ℝ (3 : ℕ) (fun σ : ℝ => Psir m T (fun i => ρ i + σ * w i)) 0)
    (hr : critConditions m eig T ρ = .ok (0, 0)) : IsCritical (psiTotal m.alphar R) T ρ := by
  unfold critConditions at hr
  obtain ⟨⟨d, e⟩, h1, h2⟩ := Outcome.bind_eq_ok.mp hr
  injection h2 with h2
  injection h2 with h2 h3
  change d 2 = 0 at h2
  change d 3 = 0 at h3
  obtain ⟨he1, hd⟩ := getDerivs_ok h1
  obtain ⟨hu, -, hmin⟩ := eigenProblem_least he h hR hρ he1
  rw [getDerivs_along hR hρ h1 le_rfl (by norm_num) ((hs _).of_le (by norm_num))] at h2
  rw [getDerivs_along hR hρ h1 (by norm_num) (by norm_num) (hs _)] at h3
  refine ⟨fun w => ?_, e.v0, ?_, h2, h3⟩
  · by_cases hw : ∑ i, w i ^ 2 = 0
    · have hz : ∀ i, w i = 0 := fun i => by
        have := (Finset.sum_eq_zero_iff_of_nonneg fun i _ => sq_nonneg (w i)).mp hw i (Finset.mem_univ i)
        exact pow_eq_zero_iff (two_ne_zero) |>.mp this
      rw [dir_two h hR hρ]
      simp [qf, hz]
    · have hw0 : 0 < ∑ i, w i ^ 2 := lt_of_le_of_ne (Finset.sum_nonneg fun i _ => sq_nonneg _) (Ne.symm hw)
      obtain ⟨l, -, hf⟩ := eigenProblem_ok he h (fun i => (hρ i).ne') he1
      obtain ⟨f1, f2, f3⟩ := isEigenFrame_iff.mp hf
      have h0 : l 0 = 0 := by
        rw [← h2, dir_two h hR hρ]
        exact (qf_col f1 f2 0).symm
      have := rayleigh f1 f2 f3 w
      rw [dir_two h hR hρ]
      rwa [h0, zero_mul] at this
  · by_contra hz
    push Not at hz
    simp [hz] at hu

/-- **C42** At a critical state with a single critical direction both criticality conditions vanish. -/
theorem critConditions_complete {n : ℕ} {m : EOS (Fin (n + 2))} {eig : EigSolver} {T R : ℝ} {ρ : Fin (n + 2) → ℝ}
    (he : EigContract eig) (h : SmoothAt m T ρ) (hR : ∀ x, m.R x = R) (hρ : ∀ i, 0 < ρ i)
    (hs : ∀ w : Fin (n + 2) → ℝ, ContDiffAt ℝ (3 : ℕ) (fun σ : ℝ => Psir m T (fun i => ρ i + σ * w i)) 0)
    (hc : IsCritical (psiTotal m.alphar R) T ρ)
    (h1d : ∀ w w', dirDeriv (psiTotal m.alphar R T) ρ w 2 = 0 → dirDeriv (psiTotal m.alphar R T) ρ w' 2 = 0 →
      (∃ i, w i ≠ 0) → ∃ μ : ℝ, ∀ i, w' i = μ * w i) :
    critConditions m eig T ρ = .ok (0, 0) := by
  obtain ⟨e, l, he1, -⟩ := eigenProblem_frame he h (fun i => (hρ i).ne') none
  obtain ⟨hpos, w, hw, h2, h3⟩ := hc
  obtain ⟨l, -, hf⟩ := eigenProblem_ok he h (fun i => (hρ i).ne') he1
  obtain ⟨f1, f2, f3⟩ := isEigenFrame_iff.mp hf
  have hl : dirDeriv (psiTotal m.alphar R T) ρ e.v0 2 = l 0 := by
    rw [dir_two h hR hρ]
    exact qf_col f1 f2 0
  have hl0 : 0 ≤ l 0 := hl ▸ hpos e.v0
  have hw0 : 0 < ∑ i, w i ^ 2 := by
    obtain ⟨i, hi⟩ := hw
    exact Finset.sum_pos' (fun i _ => sq_nonneg _) ⟨i, Finset.mem_univ i, by positivity⟩
  have hz : l 0 = 0 := by
    have := rayleigh f1 f2 f3 w
    rw [← dir_two h hR hρ, h2] at this
    nlinarith
  obtain ⟨μ, hμ⟩ := h1d w e.v0 h2 (by rw [hl, hz]) hw
  have hv3 : dirDeriv (psiTotal m.alphar R T) ρ e.v0 3 = 0 := by
    rw [show e.v0 = fun i => μ * w i from funext hμ, dirDeriv_smul hR hρ (hs w), h3, mul_zero]
  have hd : getDerivs m eig T ρ none = .ok (psiTot m T ρ e.v0, e) := by
    unfold getDerivs
    rw [he1]
    rfl
  unfold critConditions
  rw [hd, Outcome.bind_ok]
  simp only
  rw [psiTot_eq hR hρ le_rfl (by norm_num) ((hs e.v0).of_le (by norm_num)), psiTot_eq hR hρ (by norm_num) (by norm_num) (hs e.v0)]
  change Outcome.ok (dirDeriv (psiTotal m.alphar R T) ρ e.v0 2, dirDeriv (psiTotal m.alphar R T) ρ e.v0 3) = _
  rw [hl, hz, hv3]

theorem bend_line3 (T : ℝ) (hT : T ≠ 0) {ρ : Fin 2 → ℝ} (hρ : ∀ i, 0 < ρ i) (w : Fin 2 → ℝ) :
    ContDiffAt ℝ (3 : ℕ) (fun σ : ℝ => Psir bend T (fun i => ρ i + σ * w i)) 0 :=
  ofTotal_line (n := 3) bendP_contDiff hT hρ w

/-- The whole critical curve of the sample fluid. -/
theorem bend_conditions {T : ℝ} (h0 : 0 < T) (h2 : T < 2) :
    critConditions (n := 0) bend spectralEig T (fun _ => 2 - T) = .ok (0, 0) := by
  have hρ : ∀ i : Fin 2, 0 < (fun _ : Fin 2 => 2 - T) i := fun _ => by simp; linarith
  refine critConditions_complete (n := 0) (R := 1) spectralEig_contract (bend_smooth h0.ne' hρ) (fun _ => rfl) hρ
    (bend_line3 T h0.ne' hρ) (bend_critical h0 h2) ?_
  intro w w' hw hw' hne
  rw [bend_dir h0.ne' hρ _ (by norm_num)] at hw hw'
  simp only [bendD] at hw hw'
  have h1 : w 1 = (T - 1) * w 0 := by nlinarith [sq_nonneg (w 1 - (T - 1) * w 0)]
  have h1' : w' 1 = (T - 1) * w' 0 := by nlinarith [sq_nonneg (w' 1 - (T - 1) * w' 0)]
  have hw0 : w 0 ≠ 0 := by
    intro hz
    obtain ⟨i, hi⟩ := hne
    fin_cases i
    · exact hi hz
    · simp [hz] at h1
      exact hi h1
  refine ⟨w' 0 / w 0, fun i => ?_⟩
  fin_cases i
  · simp; field_simp
  · simp only [Fin.mk_one, h1, h1']
    field_simp

example : critConditions (n := 0) bend spectralEig (3 / 2) (fun _ => 2 - 3 / 2) = .ok (0, 0) :=
  bend_conditions (by norm_num) (by norm_num)

example : IsCritical (psiTotal bend.alphar 1) (3 / 2) (fun _ => 2 - 3 / 2) :=
  critConditions_sound (n := 0) (R := 1) spectralEig_contract (bend_smooth (by norm_num) fun _ => by norm_num)
    (fun _ => rfl) (fun _ => by norm_num) (bend_line3 _ (by norm_num) fun _ => by norm_num)
    (bend_conditions (by norm_num) (by norm_num))

/-- **C42** The third derivative along `v0` is the derivative along `v0` of the least eigenvalue, wherever the latter can
be differentiated. -/
theorem critConditions_dirderiv {n : ℕ} {m : EOS (Fin (n + 2))} {eig : EigSolver} {T R L : ℝ} {ρ : Fin (n + 2) → ℝ}
    {d : ℕ → ℝ} {e : EigenData n}
    (he : EigContract eig) (h : SmoothAt m T ρ) (hR : ∀ x, m.R x = R) (hρ : ∀ i, 0 < ρ i)
    (hs : ∀ w : Fin (n + 2) → ℝ, ContDiffAt ℝ (3 : ℕ) (fun σ : ℝ => Psir m T (fun i => ρ i + σ * w i)) 0)
    (hr : getDerivs m eig T ρ none = .ok (d, e)) {lam : ℝ → ℝ}
    (hlam : ∀ᶠ σ in 𝓝 0, ∃ e', eigenProblem m eig T (fun i => ρ i + σ * e.v0 i) none = .ok e' ∧
      e'.values.head? = some (lam σ))
    (hL : HasDerivAt lam L 0) : d 3 = L := by
  obtain ⟨he1, -⟩ := getDerivs_ok hr
  rw [getDerivs_along hR hρ hr (by norm_num) (by norm_num) (hs _)]
  have hcd := contDiffAt_dir (R := R) hR hρ (hs e.v0)
  have hpos : ∀ᶠ σ : ℝ in 𝓝 0, ∀ i, 0 < ρ i + σ * e.v0 i := by
    rw [eventually_all]
    intro i
    have hc : ContinuousAt (fun σ : ℝ => ρ i + σ * e.v0 i) 0 := by fun_prop
    exact hc.eventually (lt_mem_nhds (by simpa using hρ i))
  obtain ⟨hu, -, -⟩ := eigenProblem_least he h hR hρ he1
  set f := fun σ : ℝ => psiTotal m.alphar R T (fun i => ρ i + σ * e.v0 i) with hf
  have hshift : ∀ σ : ℝ, dirDeriv (psiTotal m.alphar R T) (fun i => ρ i + σ * e.v0 i) e.v0 2 = iteratedDeriv 2 f σ := by
    intro σ
    have h2 : (fun σ' : ℝ => psiTotal m.alphar R T fun i => ρ i + σ * e.v0 i + σ' * e.v0 i) = fun z => f (σ + z) := by
      funext σ'
      simp only [hf]
      congr 1
      funext i
      ring
    unfold dirDeriv
    rw [h2, iteratedDeriv_comp_const_add]
    simp
  have hle : ∀ᶠ σ in 𝓝 0, 0 ≤ iteratedDeriv 2 f σ - lam σ ∧ SmoothAt m T (fun i => ρ i + σ * e.v0 i) := by
    filter_upwards [hpos, hlam, smooth_shift (v := e.v0) h] with σ hp hl hsm
    obtain ⟨e', h1, h2⟩ := hl
    obtain ⟨-, g2, g3⟩ := eigenProblem_least he hsm hR hp h1
    rw [g2] at h2
    injection h2 with h2
    refine ⟨?_, hsm⟩
    rw [← h2, ← hshift]
    linarith [g3 e.v0 hu]
  have h0 : iteratedDeriv 2 f 0 - lam 0 = 0 := by
    obtain ⟨e', h1, h2⟩ := hlam.self_of_nhds
    rw [shift_zero, he1] at h1
    injection h1 with h1
    subst h1
    obtain ⟨-, g2, -⟩ := eigenProblem_least he h hR hρ he1
    rw [g2] at h2
    injection h2 with h2
    rw [← h2, ← hshift, shift_zero, sub_self]
  have hmin : IsLocalMin (fun σ => iteratedDeriv 2 f σ - lam σ) 0 := by
    filter_upwards [hle] with σ hσ
    rw [h0]
    exact hσ.1
  have hder : HasDerivAt (iteratedDeriv 2 f) (iteratedDeriv 3 f 0) 0 := by
    rw [show iteratedDeriv 3 f = deriv (iteratedDeriv 2 f) from iteratedDeriv_succ]
    exact (differentiableAt_iter (k := 2) hcd (by norm_num)).self_of_nhds.hasDerivAt
  have := hmin.hasDerivAt_eq_zero (hder.sub hL)
  change iteratedDeriv 3 f 0 = L
  linarith

/-- Eigenframe of a diagonal matrix with distinct entries. -/
theorem frame_diag {H U : Matrix (Fin 2) (Fin 2) ℝ} {l : Fin 2 → ℝ} {a c : ℝ} (hH : H = !![a, 0; 0, c]) (hac : a < c)
    (h : IsEigenFrame H l U) :
    l 0 = a ∧ U 1 0 = 0 ∧ U 0 1 = 0 ∧ (U 0 0 = 1 ∨ U 0 0 = -1) ∧ (U 1 1 = 1 ∨ U 1 1 = -1) := by
  obtain ⟨h1, h2, h3⟩ := h
  subst hH
  have e00 := h1 0 0
  have e10 := h1 1 0
  have e01 := h1 0 1
  have e11 := h1 1 1
  have o00 := h2 0 0
  have o01 := h2 0 1
  have o11 := h2 1 1
  have hl := h3 0 1 (by decide)
  simp [Fin.sum_univ_two] at e00 e10 e01 e11 o00 o01 o11
  have hne : U 0 0 ≠ 0 := by
    intro hz
    have hu : U 1 0 ≠ 0 := by intro h0; rw [hz, h0] at o00; norm_num at o00
    have hlc : c = l 0 := e10.resolve_right hu
    have hu11 : U 1 1 = 0 := by
      rw [hz] at o01
      simpa [hu] using o01
    have hu01 : U 0 1 ≠ 0 := by intro h0; rw [hu11, h0] at o11; norm_num at o11
    have hla : a = l 1 := e01.resolve_right hu01
    linarith
  have hla : a = l 0 := e00.resolve_right hne
  have hu10 : U 1 0 = 0 := e10.resolve_left (by intro hc; linarith)
  have hu01 : U 0 1 = 0 := by
    rw [hu10] at o01
    simpa [hne] using o01
  rw [hu10] at o00
  rw [hu01] at o11
  refine ⟨hla.symm, hu10, hu01, ?_, ?_⟩
  · exact mul_self_eq_one_iff.mp (by linarith)
  · exact mul_self_eq_one_iff.mp (by linarith)

/-- A fluid with Hessian `diag(a, 2)`. -/
noncomputable def cubicFluid : EOS (Fin 2) := ofTotal fun _ a b => a ^ 3 / 6 + b ^ 2

theorem cubicFluid_contDiff {n : ℕ} : ContDiff ℝ n fun p : ℝ × ℝ × ℝ => p.2.1 ^ 3 / 6 + p.2.2 ^ 2 := by fun_prop

theorem cubicFluid_hess {T : ℝ} {ρ : Fin 2 → ℝ} (hT : T ≠ 0) (hρ : ∀ i, 0 < ρ i) :
    critHess cubicFluid T ρ = !![ρ 0, 0; 0, 2] := by
  have hsm : SmoothAt cubicFluid T ρ := ofTotal_smooth (cubicFluid_contDiff (n := 2)) hT hρ
  have hq : ∀ w : Fin 2 → ℝ, qf (critHess cubicFluid T ρ) w = w 0 ^ 2 * ρ 0 + 2 * w 1 ^ 2 := fun w => by
    rw [← psiTot_two (n := 0) hsm]
    refine (ofTotal_tot (cubicFluid_contDiff (n := 4)) hT hρ w le_rfl (by norm_num)).trans ?_
    refine HasD2.iteratedDeriv_eq ⟨fun s => (ρ 0 + s * w 0) ^ 2 / 2 * w 0 + 2 * (ρ 1 + s * w 1) * w 1,
      Eventually.of_forall fun s => ?_, ?_⟩
    · have ha := hasDerivAt_pi.1 (hasDerivAt_shift ρ w s) 0
      have hb := hasDerivAt_pi.1 (hasDerivAt_shift ρ w s) 1
      refine (((ha.pow 3).div_const 6).add (hb.pow 2)).congr_deriv ?_
      simp
      ring
    · have ha := hasDerivAt_pi.1 (hasDerivAt_shift ρ w 0) 0
      have hb := hasDerivAt_pi.1 (hasDerivAt_shift ρ w 0) 1
      refine ((((ha.pow 2).div_const 2).mul_const (w 0)).add ((hb.const_mul 2).mul_const (w 1))).congr_deriv ?_
      simp
      ring
  have hsym : critHess cubicFluid T ρ 1 0 = critHess cubicFluid T ρ 0 1 := (critHess_symm hsm).apply 0 1
  have h1 := hq ![1, 0]
  have h2 := hq ![0, 1]
  have h3 := hq ![1, 1]
  simp [qf] at h1 h2 h3
  ext i j
  fin_cases i <;> fin_cases j <;> simp <;> linarith

/-- For this fluid the least eigenvalue is the first concentration. -/
theorem cubicFluid_least {T : ℝ} {ρ : Fin 2 → ℝ} (hT : T ≠ 0) (hρ : ∀ i, 0 < ρ i) (h2 : ρ 0 < 2) :
    ∃ e : EigenData 0, eigenProblem cubicFluid spectralEig T ρ none = .ok e ∧ e.values.head? = some (ρ 0) ∧
      (e.v0 0 = 1 ∨ e.v0 0 = -1) ∧ e.v0 1 = 0 := by
  have hsm : SmoothAt cubicFluid T ρ := ofTotal_smooth (cubicFluid_contDiff (n := 2)) hT hρ
  obtain ⟨e, -, he, -⟩ := eigenProblem_frame (n := 0) spectralEig_contract hsm (fun i => (hρ i).ne') none
  obtain ⟨l, hl, hf⟩ := eigenProblem_ok (n := 0) spectralEig_contract hsm (fun i => (hρ i).ne') he
  obtain ⟨a1, a2, -, a4, -⟩ := frame_diag (cubicFluid_hess hT hρ) h2 hf
  refine ⟨e, he, ?_, a4, a2⟩
  rw [hl, ← a1]
  simp [List.ofFn_succ]

example : ∃ d e, getDerivs (n := 0) cubicFluid spectralEig 5 (fun _ => 1) none = .ok (d, e) ∧ d 3 = e.v0 0 := by
  obtain ⟨e, he, -, hv, -⟩ := cubicFluid_least (T := 5) (ρ := fun _ => 1) (by norm_num) one_pos' (by norm_num)
  have hd : getDerivs (n := 0) cubicFluid spectralEig 5 (fun _ => 1) none =
      .ok (psiTot cubicFluid 5 (fun _ => 1) e.v0, e) := by
    unfold getDerivs
    rw [he]
    rfl
  refine ⟨_, e, hd, ?_⟩
  refine critConditions_dirderiv (n := 0) (R := 1) spectralEig_contract
    (ofTotal_smooth (cubicFluid_contDiff (n := 2)) (by norm_num) one_pos') (fun _ => rfl) one_pos'
    (ofTotal_line (n := 3) cubicFluid_contDiff (by norm_num) one_pos') hd (lam := fun σ => 1 + σ * e.v0 0) ?_
    ((((hasDerivAt_id (0 : ℝ)).mul_const (e.v0 0)).const_add 1).congr_deriv (by simp))
  have hc : ContinuousAt (fun σ : ℝ => 1 + σ * e.v0 0) 0 := by fun_prop
  filter_upwards [pos_shift one_pos' e.v0, hc.eventually (gt_mem_nhds (show 1 + (0 : ℝ) * e.v0 0 < 2 by norm_num))] with σ h1 h2
  obtain ⟨e', g1, g2, -⟩ := cubicFluid_least (T := 5) (by norm_num) h1 h2
  exact ⟨e', g1, g2⟩

/-! ## Local stability -/

/-- **C42** `is_locally_stable` compares the least second derivatives at the two displaced states with the one at the
state itself. -/
theorem isLocallyStable_iff {n : ℕ} {m : EOS (Fin (n + 2))} {eig : EigSolver} {T R rel : ℝ} {ρ : Fin (n + 2) → ℝ}
    {P : Prop} (he : EigContract eig) (hR : ∀ x, m.R x = R)
    (hsm : ∀ r : Fin (n + 2) → ℝ, (∀ i, 0 < r i) → SmoothAt m T r) (hρ : ∀ i, 0 < ρ i)
    (hr : isLocallyStable m eig T ρ rel = .ok P) :
    ∃ e rp rm, eigenProblem m eig T ρ none = .ok e ∧ eigenVectorPath m eig T ρ e.v0 (rel * ∑ i, ρ i) = .ok rp ∧
      eigenVectorPath m eig T ρ e.v0 (-(rel * ∑ i, ρ i)) = .ok rm ∧
      ((∀ i, 0 < rp i) → (∀ i, 0 < rm i) →
        (P ↔ ∀ w, ∑ i, w i ^ 2 = 1 →
          dirDeriv (psiTotal m.alphar R T) ρ e.v0 2 ≤ dirDeriv (psiTotal m.alphar R T) rp w 2 ∧
          dirDeriv (psiTotal m.alphar R T) ρ e.v0 2 ≤ dirDeriv (psiTotal m.alphar R T) rm w 2)) := by
  unfold isLocallyStable at hr
  obtain ⟨e, h1, hr⟩ := Outcome.bind_eq_ok.mp hr
  obtain ⟨rp, h2, hr⟩ := Outcome.bind_eq_ok.mp hr
  obtain ⟨ep, h3, hr⟩ := Outcome.bind_eq_ok.mp hr
  obtain ⟨rm, h4, hr⟩ := Outcome.bind_eq_ok.mp hr
  obtain ⟨em, h5, hr⟩ := Outcome.bind_eq_ok.mp hr
  refine ⟨e, rp, rm, h1, h2, h4, fun hp hm => ?_⟩
  obtain ⟨-, a2, -⟩ := eigenProblem_least he (hsm ρ hρ) hR hρ h1
  obtain ⟨b1, b2, b3⟩ := eigenProblem_least he (hsm rp hp) hR hp h3
  obtain ⟨c1, c2, c3⟩ := eigenProblem_least he (hsm rm hm) hR hm h5
  rw [a2, b2, c2] at hr
  injection hr with hr
  rw [← hr]
  constructor
  · intro hn w hw
    rw [not_or, not_lt, not_lt] at hn
    exact ⟨hn.1.trans (b3 w hw), hn.2.trans (c3 w hw)⟩
  · rintro hall (h' | h')
    · exact absurd (hall ep.v0 b1).1 (not_le.mpr h')
    · exact absurd (hall em.v0 c1).2 (not_le.mpr h')

theorem eigenProblem_returns {n : ℕ} (m : EOS (Fin (n + 2))) (eig : EigSolver) (T : ℝ) {ρ : Fin (n + 2) → ℝ}
    (align : Option (Fin (n + 2) → ℝ)) (hρ : ∀ i, ρ i ≠ 0) :
    ∃ e v, eigenProblem m eig T ρ align = .ok e ∧ e.values.head? = some v := by
  unfold eigenProblem
  rw [if_pos (zeroCount_zero hρ)]
  exact ⟨_, _, rfl, by simp [List.ofFn_succ]; rfl⟩

theorem v0_bound {m : EOS (Fin 2)} {T : ℝ} {ρ : Fin 2 → ℝ} {align : Option (Fin 2 → ℝ)} {e : EigenData 0}
    (h : SmoothAt m T ρ) (hρ : ∀ i, 0 < ρ i) (he : eigenProblem m spectralEig T ρ align = .ok e) (i : Fin 2) :
    -1 ≤ e.v0 i ∧ e.v0 i ≤ 1 := by
  obtain ⟨l, -, hf⟩ := eigenProblem_ok (n := 0) spectralEig_contract h (fun i => (hρ i).ne') he
  have hu : ∑ i, e.v0 i ^ 2 = 1 := col_unit (isEigenFrame_iff.mp hf).2.1 0
  rw [Fin.sum_univ_two] at hu
  fin_cases i <;> simp <;> constructor <;> nlinarith [sq_nonneg (e.v0 0), sq_nonneg (e.v0 1)]

example : ∃ P, isLocallyStable (n := 0) cubicFluid spectralEig 5 (fun _ => 1) 0.001 = .ok P := by
  have hsm : ∀ r : Fin 2 → ℝ, (∀ i, 0 < r i) → SmoothAt cubicFluid 5 r := fun r hr =>
    ofTotal_smooth (cubicFluid_contDiff (n := 2)) (by norm_num) hr
  have step : ∀ (r : Fin 2 → ℝ) (al : Option (Fin 2 → ℝ)), (∀ i, 0 < r i) → ∃ e : EigenData 0, ∃ v,
      eigenProblem cubicFluid spectralEig 5 r al = .ok e ∧ e.values.head? = some v ∧ ∀ i, -1 ≤ e.v0 i ∧ e.v0 i ≤ 1 := by
    intro r al hr
    obtain ⟨e, v, h1, h2⟩ := eigenProblem_returns (n := 0) cubicFluid spectralEig 5 al fun i => (hr i).ne'
    exact ⟨e, v, h1, h2, v0_bound (hsm r hr) hr h1⟩
  have path : ∀ (u : Fin 2 → ℝ) (d : ℝ), (∀ i, -1 ≤ u i ∧ u i ≤ 1) → -0.01 ≤ d → d ≤ 0.01 →
      ∃ r, eigenVectorPath (n := 0) cubicFluid spectralEig 5 (fun _ => 1) u d = .ok r ∧ ∀ i, 0 < r i := by
    intro u d hu hd hd'
    have hp : ∀ w : Fin 2 → ℝ, (∀ i, -1 ≤ w i ∧ w i ≤ 1) → ∀ c : ℝ, -0.02 ≤ c → c ≤ 0.02 → ∀ i : Fin 2, 0 < 1 + c * w i := by
      intro w hw c hc hc' i
      nlinarith [(hw i).1, (hw i).2]
    obtain ⟨e1, _, a1, -, a3⟩ := step (fun i => 1 + d * u i) (some u) (hp u hu d (by linarith) (by linarith))
    obtain ⟨e2, _, b1, -, b3⟩ := step (fun i => 1 + d * e1.v0 i) (some u) (hp _ a3 d (by linarith) (by linarith))
    obtain ⟨e3, _, c1, -, c3⟩ := step (fun i => 1 + 2 * d * e2.v0 i) (some u) (hp _ b3 (2 * d) (by linarith) (by linarith))
    refine ⟨fun i => 1 + 2 * d * (u i / 6 + u i / 3 + u i / 3 + e3.v0 i / 6), ?_, hp _ (fun i => ?_) (2 * d) (by linarith)
      (by linarith)⟩
    · unfold eigenVectorPath
      rw [a1, Outcome.bind_ok, b1, Outcome.bind_ok, c1, Outcome.bind_ok]
    · have h1 := hu i
      have h2 := c3 i
      constructor <;> linarith
  obtain ⟨e, v, h1, h2, h3⟩ := step (fun _ => 1) none one_pos'
  obtain ⟨rp, p1, p2⟩ := path e.v0 (0.001 * ∑ _i : Fin 2, (1 : ℝ)) h3 (by norm_num) (by norm_num)
  obtain ⟨rm, m1, m2⟩ := path e.v0 (-(0.001 * ∑ _i : Fin 2, (1 : ℝ))) h3 (by norm_num) (by norm_num)
  obtain ⟨ep, vp, q1, q2, -⟩ := step rp (some e.v0) p2
  obtain ⟨em, vm, r1, r2, -⟩ := step rm (some e.v0) m2
  refine ⟨¬(vp < v ∨ vm < v), ?_⟩
  unfold isLocallyStable
  rw [h1, Outcome.bind_ok]
  simp only
  rw [p1, Outcome.bind_ok, q1, Outcome.bind_ok, m1, Outcome.bind_ok, r1, Outcome.bind_ok, h2, q2, r2]

end Teqp.Props

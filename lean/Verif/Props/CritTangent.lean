import Verif.Props.CritEigen
import Verif.Props.Envelope

/-! # The tangent of the critical curve (C42) -/

set_option autoImplicit false

open Teqp.Calc Teqp.Model Teqp.Spec Teqp.Lemmas Teqp.MixVLE Teqp.CritTrace Teqp.Sample Teqp.Envelope Filter Topology

namespace Teqp.Props

/-- At a critical state the least eigenvalue vanishes. -/
theorem least_zero {n : ℕ} {m : EOS (Fin (n + 2))} {eig : EigSolver} {T R : ℝ} {ρ : Fin (n + 2) → ℝ}
    {align : Option (Fin (n + 2) → ℝ)} {e : EigenData n} {l : ℝ}
    (he : EigContract eig) (h : SmoothAt m T ρ) (hR : ∀ x, m.R x = R) (hρ : ∀ i, 0 < ρ i)
    (hc : IsCritical (psiTotal m.alphar R) T ρ)
    (hr : eigenProblem m eig T ρ align = .ok e) (hl : e.values.head? = some l) : l = 0 := by
  obtain ⟨hpos, w, ⟨i, hi⟩, h2, -⟩ := hc
  obtain ⟨l', hl', hf⟩ := eigenProblem_ok he h (fun i => (hρ i).ne') hr
  obtain ⟨f1, f2, f3⟩ := isEigenFrame_iff.mp hf
  have hll : l = l' 0 := by
    rw [hl'] at hl
    simpa [List.ofFn_succ] using hl.symm
  have h0 : 0 ≤ l' 0 := by
    rw [← qf_col f1 f2 0, ← dir_two h hR hρ]
    exact hpos _
  have hw0 : 0 < ∑ i, w i ^ 2 := Finset.sum_pos' (fun i _ => sq_nonneg _) ⟨i, Finset.mem_univ i, by positivity⟩
  have := rayleigh f1 f2 f3 w
  rw [← dir_two h hR hρ, h2] at this
  rw [hll]
  nlinarith

theorem frame_expand {U : Matrix (Fin 2) (Fin 2) ℝ} (h : ∀ k k', ∑ i, U i k * U i k' = if k = k' then 1 else 0)
    (v : Fin 2 → ℝ) (i : Fin 2) : v i = (∑ j, U j 0 * v j) * U i 0 + (∑ j, U j 1 * v j) * U i 1 := by
  have hU : U.transpose * U = 1 := by
    ext k k'
    rw [Matrix.mul_apply]
    simp only [Matrix.transpose_apply, h, Matrix.one_apply]
  have hU' : U * U.transpose = 1 := mul_eq_one_comm.mp hU
  have e : ∀ j, U i 0 * U j 0 + U i 1 * U j 1 = if i = j then 1 else 0 := fun j => by
    have := congrFun (congrFun hU' i) j
    rw [Matrix.mul_apply] at this
    simpa [Fin.sum_univ_two, Matrix.one_apply] using this
  have e0 := e 0
  have e1 := e 1
  simp only [Fin.sum_univ_two]
  fin_cases i
  · simp at e0 e1 ⊢
    linear_combination -v 0 * e0 - v 1 * e1
  · simp at e0 e1 ⊢
    linear_combination -v 0 * e0 - v 1 * e1

/-- **C42** (partial) The velocity of a curve of critical states satisfies the first of the two equations solved by
`get_drhovec_dT_crit`, with exact derivatives of the least eigenvalue in place of the finite differences.  What is
missing: the error of the finite differences; the second equation is false, see `critTangent_leaves_curve`. -/
theorem critTangent_first_equation_partial {m : EOS (Fin 2)} {eig : EigSolver} {T R : ℝ} {ρ v : Fin 2 → ℝ}
    {d : ℕ → ℝ} {e : EigenData 0} {γ : ℝ → Fin 2 → ℝ} {lam : ℝ × (Fin 2 → ℝ) → ℝ} {L : ℝ × (Fin 2 → ℝ) →L[ℝ] ℝ}
    (he : EigContract eig) (h : SmoothAt m T ρ) (hR : ∀ x, m.R x = R) (hρ : ∀ i, 0 < ρ i)
    (hs : ∀ w : Fin 2 → ℝ, ContDiffAt ℝ (3 : ℕ) (fun σ : ℝ => Psir m T (fun i => ρ i + σ * w i)) 0)
    (hr : getDerivs m eig T ρ none = .ok (d, e))
    (hlam : ∀ᶠ p : ℝ × (Fin 2 → ℝ) in 𝓝 (T, ρ), ∃ e', eigenProblem (n := 0) m eig p.1 p.2 none = .ok e' ∧
      e'.values.head? = some (lam p))
    (hL : HasFDerivAt lam L (T, ρ)) (hγ : HasDerivAt γ v T) (hγ0 : γ T = ρ)
    (hc : ∀ᶠ t in 𝓝 T, IsCritical (psiTotal m.alphar R) t (γ t)) :
    d 3 * ∑ i, e.v0 i * v i + L (0, e.v1) * ∑ i, e.v1 i * v i = -L (1, 0) := by
  obtain ⟨he1, -⟩ := getDerivs_ok (n := 0) hr
  obtain ⟨l, -, hf⟩ := eigenProblem_ok (n := 0) he h (fun i => (hρ i).ne') he1
  subst hγ0
  have hcur : HasDerivAt (fun t => (t, γ t)) ((1 : ℝ), v) T := (hasDerivAt_id T).prodMk hγ
  have hz : ∀ᶠ t in 𝓝 T, lam (t, γ t) = 0 := by
    filter_upwards [hc, hcur.continuousAt.eventually hlam,
      smooth_curve (τ := fun t => t) h continuousAt_id hγ.continuousAt, pos_curve hγ.continuousAt hρ] with t h1 h2 h3 h4
    obtain ⟨e', g1, g2⟩ := h2
    exact least_zero (n := 0) he h3 hR h4 h1 g1 g2
  have h0 : L (1, v) = 0 := by
    have h1 : HasDerivAt (fun t => lam (t, γ t)) (L (1, v)) T := HasFDerivAt.comp_hasDerivAt (f := fun t => (t, γ t)) T hL hcur
    exact h1.unique ((hasDerivAt_const T (0 : ℝ)).congr_of_eventuallyEq hz)
  have h3 : d 3 = L (0, e.v0) := by
    have hline : HasDerivAt (fun σ : ℝ => (T, fun i => γ T i + σ * e.v0 i)) ((0 : ℝ), e.v0) 0 :=
      (hasDerivAt_const 0 T).prodMk (hasDerivAt_shift (γ T) e.v0 0)
    have hL0 : HasFDerivAt lam L ((fun σ : ℝ => (T, fun i => γ T i + σ * e.v0 i)) 0) := by
      simpa using hL
    refine critConditions_dirderiv (n := 0) he h hR hρ hs hr (lam := fun σ => lam (T, fun i => γ T i + σ * e.v0 i)) ?_
      (HasFDerivAt.comp_hasDerivAt (f := fun σ : ℝ => (T, fun i => γ T i + σ * e.v0 i)) 0 hL0 hline)
    refine hline.continuousAt.eventually (p := fun p : ℝ × (Fin 2 → ℝ) => ∃ e', eigenProblem (n := 0) m eig p.1 p.2 none = .ok e' ∧
      e'.values.head? = some (lam p)) ?_
    simpa using hlam
  have hv : ((1 : ℝ), v) = (1, 0) + (∑ i, e.v0 i * v i) • ((0 : ℝ), e.v0) + (∑ i, e.v1 i * v i) • ((0 : ℝ), e.v1) := by
    refine Prod.ext (by simp) (funext fun i => ?_)
    have := frame_expand hf.2.1 v i
    simp only [Prod.snd_add, Prod.smul_snd, Pi.add_apply, Pi.smul_apply, smul_eq_mul, zero_add]
    exact this
  rw [hv, map_add, map_add, map_smul, map_smul, smul_eq_mul, smul_eq_mul, ← h3] at h0
  linarith

/-- Least eigenvalue of a symmetric matrix with two rows. -/
theorem frame_two {l : Fin 2 → ℝ} {U : Matrix (Fin 2) (Fin 2) ℝ} {a b c : ℝ} (h : IsEigenFrame !![a, b; b, c] l U) :
    l 0 = ((a + c) - Real.sqrt ((a - c) ^ 2 + 4 * b ^ 2)) / 2 := by
  obtain ⟨f1, f2, f3⟩ := isEigenFrame_iff.mp h
  have hU' : U * U.transpose = 1 := mul_eq_one_comm.mp f2
  have hH : !![a, b; b, c] = U * Matrix.diagonal l * U.transpose := by
    rw [← f1, mul_assoc, hU', mul_one]
  have htr : a + c = l 0 + l 1 := by
    have := congrArg Matrix.trace hH
    rw [Matrix.trace_mul_comm, ← mul_assoc, f2, one_mul, Matrix.trace_diagonal] at this
    simpa [Matrix.trace_fin_two, Fin.sum_univ_two] using this
  have hdet : a * c - b * b = l 0 * l 1 := by
    have := congrArg Matrix.det hH
    have hu : U.det * U.det = 1 := by
      have := congrArg Matrix.det f2
      simpa [Matrix.det_mul] using this
    rw [Matrix.det_mul, Matrix.det_mul, Matrix.det_transpose, Matrix.det_diagonal, Matrix.det_fin_two_of,
      Fin.prod_univ_two] at this
    linear_combination this + (l 0 * l 1) * hu
  have hle : l 0 ≤ l 1 := f3 (by decide)
  have hsq : Real.sqrt ((a - c) ^ 2 + 4 * b ^ 2) = l 1 - l 0 := by
    rw [show (a - c) ^ 2 + 4 * b ^ 2 = (l 1 - l 0) ^ 2 by
      linear_combination (a + c + l 0 + l 1) * htr - 4 * hdet]
    exact Real.sqrt_sq (by linarith)
  rw [hsq]
  linarith

/-- The least eigenvalue of the sample fluid. -/
noncomputable def bendLam (p : ℝ × (Fin 2 → ℝ)) : ℝ :=
  let A := (p.2 1 - 1) + 2 * (p.2 0 - 1) ^ 2 + (p.1 - 1) + (p.1 - 1) * (p.2 0 - 1)
  ((A + 1) - Real.sqrt ((A - 1) ^ 2 + 4 * (p.2 0 - 1) ^ 2)) / 2

theorem bendLam_eq {eig : EigSolver} (he : EigContract eig) {T : ℝ} {ρ : Fin 2 → ℝ} (hT : T ≠ 0) (hρ : ∀ i, 0 < ρ i) :
    ∃ e : EigenData 0, eigenProblem bend eig T ρ none = .ok e ∧ e.values.head? = some (bendLam (T, ρ)) := by
  obtain ⟨e, -, g1, -⟩ := eigenProblem_frame (n := 0) he (bend_smooth hT hρ) (fun i => (hρ i).ne') none
  obtain ⟨l, hl, hf⟩ := eigenProblem_ok (n := 0) he (bend_smooth hT hρ) (fun i => (hρ i).ne') g1
  rw [bend_hess hT hρ] at hf
  refine ⟨e, g1, ?_⟩
  rw [hl]
  have := frame_two hf
  simp only [List.ofFn_succ, List.head?_cons, this, bendLam]

/-- The sample fluid at `T = 1`. -/
example (eig : EigSolver) (he : EigContract eig) :
    ∃ d e, ∃ L : ℝ × (Fin 2 → ℝ) →L[ℝ] ℝ, getDerivs bend eig 1 (fun _ => 1) none = .ok (d, e) ∧
      HasFDerivAt bendLam L (1, fun _ => 1) ∧
      d 3 * ∑ i, e.v0 i * ![-1, -1] i + L (0, e.v1) * ∑ i, e.v1 i * ![-1, -1] i = -L (1, 0) := by
  obtain ⟨e, g1, -⟩ := bendLam_eq he (T := 1) one_ne_zero one_pos'
  have hd : getDerivs (n := 0) bend eig 1 (fun _ => 1) none = .ok (psiTot bend 1 (fun _ => 1) e.v0, e) := by
    unfold getDerivs
    rw [g1]
    rfl
  have hdiff : DifferentiableAt ℝ bendLam (1, fun _ => 1) := by
    have hA : DifferentiableAt ℝ (fun p : ℝ × (Fin 2 → ℝ) =>
        (p.2 1 - 1) + 2 * (p.2 0 - 1) ^ 2 + (p.1 - 1) + (p.1 - 1) * (p.2 0 - 1)) (1, fun _ => 1) := by fun_prop
    have hB : DifferentiableAt ℝ (fun p : ℝ × (Fin 2 → ℝ) => p.2 0 - 1) (1, fun _ => 1) := by fun_prop
    have hN := (hA.add_const 1).sub ((((hA.sub_const 1).pow 2).add ((hB.pow 2).const_mul 4)).sqrt (by norm_num))
    unfold bendLam
    simp only [div_eq_mul_inv]
    exact hN.mul_const _
  refine ⟨_, e, fderiv ℝ bendLam (1, fun _ => 1), hd, hdiff.hasFDerivAt, ?_⟩
  have hc : ∀ᶠ t in 𝓝 (1 : ℝ), IsCritical (psiTotal bend.alphar 1) t (fun _ => 2 - t) := by
    filter_upwards [Ioo_mem_nhds (show (0 : ℝ) < 1 by norm_num) (show (1 : ℝ) < 2 by norm_num)] with t ht
    exact bend_critical ht.1 ht.2
  refine critTangent_first_equation_partial (R := 1) (γ := fun t _ => 2 - t) (lam := bendLam) he
    (bend_smooth one_ne_zero one_pos') (fun _ => rfl) one_pos' (bend_line3 1 one_ne_zero one_pos') hd ?_
    hdiff.hasFDerivAt ?_ (by funext _; norm_num) hc
  · have h1 : ∀ᶠ p : ℝ × (Fin 2 → ℝ) in 𝓝 (1, fun _ => 1), 0 < p.1 ∧ ∀ i, 0 < p.2 i := by
      refine Filter.Eventually.and ?_ (eventually_all.mpr fun i => ?_)
      · exact continuousAt_fst.eventually (lt_mem_nhds one_pos)
      · have : ContinuousAt (fun p : ℝ × (Fin 2 → ℝ) => p.2 i) (1, fun _ => 1) := by fun_prop
        exact this.eventually (lt_mem_nhds one_pos)
    filter_upwards [h1] with p hp
    exact bendLam_eq he hp.1.ne' hp.2
  · rw [hasDerivAt_pi]
    intro i
    have := (hasDerivAt_id (1 : ℝ)).const_sub 2
    fin_cases i <;> simpa using this

/-! ## The second equation -/

/-- The critical states of the sample fluid with positive concentrations are exactly `(2 - T, 2 - T)`. -/
theorem bend_critical_unique {T : ℝ} {ρ : Fin 2 → ℝ} (hT : T ≠ 0) (hρ : ∀ i, 0 < ρ i)
    (h : IsCritical (psiTotal bend.alphar 1) T ρ) : ρ 0 = 2 - T ∧ ρ 1 = 2 - T := by
  obtain ⟨hpos, w, ⟨i, hi⟩, h2, h3⟩ := h
  have hq := fun w => bend_dir hT hρ w (k := 2) (by norm_num)
  rw [hq w] at h2
  rw [bend_dir hT hρ w (by norm_num)] at h3
  have key : ∀ a b : ℝ, 0 ≤ bendD T (ρ 0) (ρ 1) a b 2 := fun a b => by
    have := hpos ![a, b]
    rw [hq] at this
    simpa using this
  simp only [bendD] at h2 h3 key
  set A := (ρ 1 - 1) + 2 * (ρ 0 - 1) ^ 2 + (T - 1) + (T - 1) * (ρ 0 - 1) with hA
  -- the null direction is `(1, -(ρ 0 - 1))`
  have hdet : 0 ≤ A - (ρ 0 - 1) ^ 2 := by
    have := key 1 (-(ρ 0 - 1))
    nlinarith
  have hw0 : w 0 ≠ 0 := by
    intro hz
    rw [hz] at h2
    have : w 1 = 0 := by nlinarith
    fin_cases i
    · exact hi hz
    · exact hi this
  have hsplit : w 0 ^ 2 * (A - (ρ 0 - 1) ^ 2) + (w 1 + w 0 * (ρ 0 - 1)) ^ 2 = 0 := by nlinarith
  have hw02 : 0 < w 0 ^ 2 := by positivity
  have hd0 : A - (ρ 0 - 1) ^ 2 = 0 := by nlinarith [sq_nonneg (w 1 + w 0 * (ρ 0 - 1)), mul_nonneg hw02.le hdet]
  have hw1 : w 1 = -(w 0 * (ρ 0 - 1)) := by
    rw [hd0, mul_zero, zero_add] at hsplit
    have := pow_eq_zero_iff (two_ne_zero) |>.mp hsplit
    linarith
  rw [hw1] at h3
  have h3' : w 0 ^ 3 * ((ρ 0 - 1) + (T - 1)) = 0 := by linear_combination h3
  have hx : (ρ 0 - 1) + (T - 1) = 0 := by
    rcases mul_eq_zero.mp h3' with h | h
    · exact absurd (pow_eq_zero_iff (three_ne_zero) |>.mp h) hw0
    · exact h
  have hx0 : ρ 0 - 1 = -(T - 1) := by linarith
  refine ⟨by linarith, ?_⟩
  rw [hA, hx0] at hd0
  nlinarith

theorem bend_eigen {eig : EigSolver} (he : EigContract eig) {T : ℝ} {ρ : Fin 2 → ℝ} (hT : T ≠ 0) (h0 : ρ 0 = 1)
    (h1 : 0 < ρ 1) (hlt : (ρ 1 - 1) + (T - 1) < 1) (align : Option (Fin 2 → ℝ)) :
    ∃ (s0 s1 : ℝ) (e : EigenData 0), (s0 = 1 ∨ s0 = -1) ∧ (s1 = 1 ∨ s1 = -1) ∧
      getDerivs bend eig T ρ align = .ok (psiTot bend T ρ e.v0, e) ∧
      e.cols = !![s0, 0; 0, s1] ∧ (∀ i, e.v0 i = ![s0, 0] i) ∧ (∀ i, e.v1 i = ![0, s1] i) ∧
      (∀ a, align = some a → 0 ≤ s0 * a 0) := by
  have hρ : ∀ i, 0 < ρ i := fun i => by
    fin_cases i
    · simp [h0]
    · exact h1
  obtain ⟨e, l, g1, -, g3, g4⟩ := eigenProblem_frame (n := 0) he (bend_smooth hT hρ) (fun i => (hρ i).ne') align
  obtain ⟨l', -, hf⟩ := eigenProblem_ok (n := 0) he (bend_smooth hT hρ) (fun i => (hρ i).ne') g1
  have hH : critHess bend T ρ = !![(ρ 1 - 1) + (T - 1), 0; 0, 1] := by
    rw [bend_hess hT hρ, h0]
    norm_num
  obtain ⟨-, a2, a3, a4, a5⟩ := frame_diag hH hlt hf
  refine ⟨e.cols 0 0, e.cols 1 1, e, a4, a5, ?_, ?_, ?_, ?_, ?_⟩
  · unfold getDerivs
    rw [g1]
    rfl
  · ext i j
    fin_cases i <;> fin_cases j <;> simp [a2, a3]
  · intro i
    fin_cases i <;> simp [EigenData.v0, a2]
  · intro i
    fin_cases i <;> simp [EigenData.v1, a3]
  · intro a ha
    have := g4 a ha
    simpa [Fin.sum_univ_two, EigenData.v0, a2] using this

theorem bend_tot_axis {T s0 : ℝ} {ρ w : Fin 2 → ℝ} (hT : T ≠ 0) (h0 : ρ 0 = 1) (h1 : 0 < ρ 1) (hs : s0 = 1 ∨ s0 = -1)
    (hw : ∀ i, w i = ![s0, 0] i) :
    psiTot (n := 0) bend T ρ w 2 = (ρ 1 - 1) + (T - 1) ∧ psiTot (n := 0) bend T ρ w 3 = s0 * (T - 1) ∧
      psiTot (n := 0) bend T ρ w 4 = 4 := by
  have hρ : ∀ i, 0 < ρ i := fun i => by
    fin_cases i
    · simp [h0]
    · exact h1
  have w0 : w 0 = s0 := hw 0
  have w1 : w 1 = 0 := hw 1
  refine ⟨?_, ?_, ?_⟩ <;> rw [bend_tot hT hρ w (by norm_num) (by norm_num), w0, w1] <;> simp only [bendD, h0] <;>
    rcases hs with h | h <;> rw [h] <;> ring

/-- What `get_drhovec_dT_crit` returns for the sample fluid at `T = 1`, `ρ = (1, 1)`. -/
theorem bend_drhodTcrit {eig : EigSolver} (he : EigContract eig) {solve : Solver 2} (hs : SolvesRegular solve) :
    drhodTcrit bend eig solve 1 (fun _ => 1) = .ok ![-1 / 4, -1] := by
  obtain ⟨s0, s1, e, hs0, hs1, hd, hcols, hv0, hv1, -⟩ :=
    bend_eigen he (T := 1) (ρ := fun _ => 1) (by norm_num) rfl one_pos (by norm_num) none
  have hsq0 : s0 * s0 = 1 := by rcases hs0 with h | h <;> rw [h] <;> norm_num
  have hsq1 : s1 * s1 = 1 := by rcases hs1 with h | h <;> rw [h] <;> norm_num
  -- any state on the axes, aligned with `v0`
  have near : ∀ (T : ℝ) (ρ : Fin 2 → ℝ), T ≠ 0 → ρ 0 = 1 → 0 < ρ 1 → (ρ 1 - 1) + (T - 1) < 1 →
      ∃ p : (ℕ → ℝ) × EigenData 0, getDerivs bend eig T ρ (some e.v0) = .ok p ∧
        p.1 2 = (ρ 1 - 1) + (T - 1) ∧ p.1 3 = s0 * (T - 1) := by
    intro T ρ hT h0 h1 hlt
    obtain ⟨t0, t1, e', ht0, -, hd', -, hv0', -, hal⟩ := bend_eigen he hT h0 h1 hlt (some e.v0)
    have h2 := hal e.v0 rfl
    rw [hv0 0] at h2
    have ht : t0 = s0 := by
      simp at h2
      rcases ht0 with h | h <;> rcases hs0 with h' | h' <;> rw [h, h'] at h2 <;> rw [h, h'] <;> norm_num at h2
    obtain ⟨a, b, -⟩ := bend_tot_axis hT h0 h1 ht0 hv0'
    exact ⟨_, hd', a, by rw [← ht]; exact b⟩
  obtain ⟨p, hp, p2, p3⟩ := near (1 + 1e-7) (fun _ => 1) (by norm_num) rfl one_pos (by norm_num)
  obtain ⟨q, hq, q2, q3⟩ := near (1 - 1e-7) (fun _ => 1) (by norm_num) rfl one_pos (by norm_num)
  have hh : (2e-5 * ((1 : ℝ) + 1)) = 4e-5 := by norm_num
  have sh : ∀ s : ℝ, -(1 / 2) < s → s < 1 / 2 → ∃ p : (ℕ → ℝ) × EigenData 0,
      getDerivs bend eig 1 (fun i => 1 + s * e.v1 i) (some e.v0) = .ok p ∧ p.1 2 = s * s1 ∧ p.1 3 = 0 := by
    intro s hl hu
    have a1 : e.v1 1 = s1 := hv1 1
    have hb : -(1 / 2) < s * s1 ∧ s * s1 < 1 / 2 := by
      rcases hs1 with h | h <;> rw [h] <;> constructor <;> linarith
    obtain ⟨r, r1, r2, r3⟩ := near 1 (fun i => 1 + s * e.v1 i) (by norm_num) (by simp [hv1 0])
      (by simp only [a1]; linarith [hb.1]) (by simp only [a1]; linarith [hb.2])
    refine ⟨r, r1, ?_, ?_⟩
    · rw [r2, a1]; ring
    · rw [r3]; ring
  obtain ⟨pp, hpp, pp2, pp3⟩ := sh 4e-5 (by norm_num) (by norm_num)
  obtain ⟨pm, hpm, pm2, pm3⟩ := sh (-4e-5) (by norm_num) (by norm_num)
  have hpos : (∀ i : Fin 2, (1 : ℝ) + -4e-5 * e.v1 i > 0) ∧ ∀ i : Fin 2, (1 : ℝ) + 4e-5 * e.v1 i > 0 := by
    constructor <;> intro i <;> rw [hv1 i] <;> fin_cases i <;> simp <;> rcases hs1 with h | h <;> rw [h] <;> norm_num
  have hsig : sigma2Deriv bend eig 1 (fun _ => 1) (psiTot bend 1 (fun _ => 1) e.v0) e =
      .ok fun k => (pp.1 k - pm.1 k) / (2 * 4e-5) := by
    unfold sigma2Deriv
    simp only [hh]
    rw [if_pos hpos, hpp, Outcome.bind_ok, hpm, Outcome.bind_ok]
  obtain ⟨-, d3, d4⟩ := bend_tot_axis (T := 1) (ρ := fun _ => 1) (by norm_num) rfl one_pos hs0 hv0
  unfold drhodTcrit
  rw [hd, Outcome.bind_ok]
  simp only
  rw [hp, Outcome.bind_ok, hq, Outcome.bind_ok, hsig, Outcome.bind_ok]
  simp only
  congr 1
  refine hs.unique ?_ ?_
  · rw [hcols, d3, d4, pp2, pm2, pp3, pm3]
    simp [Matrix.det_fin_two]
    rcases hs0 with h | h <;> rcases hs1 with h' | h' <;> rw [h, h'] <;> norm_num
  · rw [hcols, d3, d4, pp2, pm2, pp3, pm3, p2, q2, p3, q3]
    funext i
    fin_cases i
    · simp [Matrix.mulVec, dotProduct, Fin.sum_univ_two]
      rcases hs1 with h' | h' <;> rw [h'] <;> norm_num
    · simp [Matrix.mulVec, dotProduct, Fin.sum_univ_two]
      ring

/-- **C42** is false of the code: the tangent returned at a critical state need not be tangent to the critical curve.  The
second equation uses the fourth derivative along a straight line, whereas the direction `v0` turns along the curve. -/
theorem critTangent_leaves_curve :
    ∃ (m : EOS (Fin 2)) (γ : ℝ → Fin 2 → ℝ),
      (∀ T, 0 < T → T < 2 → ∀ ρ : Fin 2 → ℝ, (∀ i, 0 < ρ i) →
        (IsCritical (psiTotal m.alphar 1) T ρ ↔ ρ = γ T)) ∧
      HasDerivAt γ ![-1, -1] 1 ∧
      ∀ eig solve, EigContract eig → SolvesRegular solve → drhodTcrit m eig solve 1 (γ 1) = .ok ![-1 / 4, -1] := by
  refine ⟨bend, fun T _ => 2 - T, fun T h0 h2 ρ hρ => ⟨fun h => ?_, fun h => ?_⟩, ?_, fun eig solve he hs => ?_⟩
  · obtain ⟨a, b⟩ := bend_critical_unique h0.ne' hρ h
    funext i
    fin_cases i
    · exact a
    · exact b
  · rw [h]
    exact bend_critical h0 h2
  · rw [hasDerivAt_pi]
    intro i
    have := (hasDerivAt_id (1 : ℝ)).const_sub 2
    fin_cases i <;> simpa using this
  · have : (fun _ : Fin 2 => (2 : ℝ) - 1) = fun _ => 1 := by funext _; norm_num
    simp only [this]
    exact bend_drhodTcrit he hs

/-! ## Normalisation and direction -/

/-- **C42** The right-hand side is a multiple of `(1, dρ/dT)`, has density part of length `|c|`, and is never reversed
with respect to the previous direction. -/
theorem critRhs_direction (c : ℝ) (d : Fin 2 → ℝ) (last : Option (Fin 2 → ℝ)) :
    (∃ μ : ℝ, ∀ i, critRhs c d last i = μ * ![1, d 0, d 1] i) ∧
      ((∃ i, d i ≠ 0) → critRhs c d last 1 ^ 2 + critRhs c d last 2 ^ 2 = c ^ 2) ∧
      ∀ l, last = some l → 0 ≤ critRhs c d last 1 * l 0 + critRhs c d last 2 * l 1 := by
  set k := 1 / Real.sqrt (d 0 * d 0 + d 1 * d 1) with hk
  have hcase : ∃ s : ℝ, (s = 1 ∨ s = -1) ∧ critRhs c d last = fun i => (s * c * k) * ![1, d 0, d 1] i := by
    have hX : (![c * k, c * (d 0 * k), c * (d 1 * k)] : Fin 3 → ℝ) = fun i => (1 * c * k) * ![1, d 0, d 1] i := by
      funext i
      fin_cases i <;> simp <;> ring
    have hX' : (fun i => (![c * k, c * (d 0 * k), c * (d 1 * k)] : Fin 3 → ℝ) i * -1) =
        fun i => (-1 * c * k) * ![1, d 0, d 1] i := by
      funext i
      fin_cases i <;> simp <;> ring
    cases last with
    | none => exact ⟨1, Or.inl rfl, by simp only [critRhs]; exact hX⟩
    | some l =>
      simp only [critRhs]
      split_ifs
      · exact ⟨-1, Or.inr rfl, hX'⟩
      · exact ⟨1, Or.inl rfl, hX⟩
  obtain ⟨s, hs, he⟩ := hcase
  refine ⟨⟨s * c * k, fun i => by rw [he]⟩, fun hd => ?_, ?_⟩
  · have hpos : 0 < d 0 * d 0 + d 1 * d 1 := by
      obtain ⟨i, hi⟩ := hd
      fin_cases i
      · have : 0 < d 0 * d 0 := mul_self_pos.mpr hi
        nlinarith [mul_self_nonneg (d 1)]
      · have : 0 < d 1 * d 1 := mul_self_pos.mpr hi
        nlinarith [mul_self_nonneg (d 0)]
    have hk2 : k ^ 2 * (d 0 * d 0 + d 1 * d 1) = 1 := by
      rw [hk, div_pow, Real.sq_sqrt hpos.le, one_pow, one_div, inv_mul_cancel₀ hpos.ne']
    have hs2 : s ^ 2 = 1 := by rcases hs with h | h <;> rw [h] <;> norm_num
    rw [he]
    simp
    linear_combination (s ^ 2 * c ^ 2) * hk2 + c ^ 2 * hs2
  · rintro l rfl
    simp only [critRhs]
    split_ifs with h <;> simp at h ⊢ <;> linarith

example : 0 ≤ critRhs 1 ![3, 4] (some ![-1, 0]) 1 * (-1) + critRhs 1 ![3, 4] (some ![-1, 0]) 2 * 0 ∧
    critRhs 1 ![3, 4] (some ![-1, 0]) 1 ^ 2 + critRhs 1 ![3, 4] (some ![-1, 0]) 2 ^ 2 = 1 ^ 2 :=
  ⟨(critRhs_direction 1 ![3, 4] (some ![-1, 0])).2.2 _ rfl, (critRhs_direction 1 ![3, 4] (some ![-1, 0])).2.1 ⟨0, by simp⟩⟩

/-- **C42** With `terminate_negative_density` a negative concentration is refused. -/
theorem critXprime_refuses_negative (m : EOS (Fin 2)) (eig : EigSolver) (solve : Solver 2) (c : ℝ)
    (last : Option (Fin 2 → ℝ)) {x : Fin 3 → ℝ} (h : x 1 < 0 ∨ x 2 < 0) :
    critXprime m eig solve true c last x = .throws .stdInvalidArgument := by
  have hn : ∃ i, crho x i < 0 := by
    rcases h with h | h
    · exact ⟨0, by simpa [crho] using h⟩
    · exact ⟨1, by simpa [crho] using h⟩
  unfold critXprime
  rw [if_pos ⟨rfl, hn⟩]

example (m : EOS (Fin 2)) (eig : EigSolver) (solve : Solver 2) :
    critXprime m eig solve true 1 none ![300, 5, -2] = .throws .stdInvalidArgument :=
  critXprime_refuses_negative m eig solve 1 none (Or.inr (by simp))

/-! ## Pressure along the curve -/

/-- **C42** `get_dp_dT_crit` is the derivative of the pressure along any curve whose velocity is the computed tangent. -/
theorem dpdTcrit_along {m : EOS (Fin 2)} {eig : EigSolver} {solve : Solver 2} {T R : ℝ} {γ : ℝ → Fin 2 → ℝ}
    {v : Fin 2 → ℝ} (h : SmoothAt m T (γ T)) (hR : ∀ x, m.R x = R) (hγ : HasDerivAt γ v T)
    (hv : drhodTcrit m eig solve T (γ T) = .ok v) :
    ∃ p, dpdTcrit m eig solve T (γ T) = .ok p ∧ HasDerivAt (fun t => mixP m.alphar R t (γ t)) p T := by
  refine ⟨_, by unfold dpdTcrit; rw [hv, Outcome.bind_ok], ?_⟩
  have h1 := p_curve h hR (τ := fun t => t) (hasDerivAt_id T) hγ rfl rfl
  have h2 : (fun t => mixP m.alphar R t (γ t)) =ᶠ[𝓝 T] fun t => solverP m (R * t) t (γ t) := by
    filter_upwards [smooth_curve (τ := fun t => t) h continuousAt_id hγ.continuousAt] with t ht
    exact mixP_eq ht hR
  refine (h1.congr_of_eventuallyEq h2).congr_deriv ?_
  simp only [one_mul, dpdrhovec, solverDp, hR]

/-- The sample fluid at its critical state, along the straight line the code would follow. -/
example (eig : EigSolver) (he : EigContract eig) (solve : Solver 2) (hs : SolvesRegular solve) :
    ∃ p, dpdTcrit bend eig solve 1 (fun i => 1 + (1 - 1) * ![-1 / 4, -1] i) = .ok p ∧
      HasDerivAt (fun t : ℝ => mixP bend.alphar 1 t (fun i => 1 + (t - 1) * ![-1 / 4, -1] i)) p 1 := by
  have e : (fun i : Fin 2 => (1 : ℝ) + (1 - 1) * ![-1 / 4, -1] i) = fun _ => 1 := by funext i; simp
  refine dpdTcrit_along (γ := fun t i => 1 + (t - 1) * ![-1 / 4, -1] i) ?_ (fun _ => rfl) (v := ![-1 / 4, -1]) ?_ ?_
  · rw [e]; exact bend_smooth one_ne_zero one_pos'
  · rw [hasDerivAt_pi]
    intro i
    exact ((((hasDerivAt_id (1 : ℝ)).sub_const 1).mul_const _).const_add 1).congr_deriv (by simp)
  · rw [e]; exact bend_drhodTcrit he hs

end Teqp.Props

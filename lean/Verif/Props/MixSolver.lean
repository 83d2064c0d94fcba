import Verif.Props.MixVLE
import Verif.Lemmas.SampleMix
import Verif.Lemmas.VLELoop
import Mathlib.LinearAlgebra.Matrix.Determinant.Basic
import Mathlib.LinearAlgebra.Matrix.ToLinearEquiv
import Mathlib.Analysis.Complex.ExponentialBounds

/-! # Return codes, absent components and the step limiter of the mixture solvers (C37, C39) -/

set_option autoImplicit false

open Teqp.Calc Teqp.Model Teqp.Spec Teqp.Lemmas Teqp.MixVLE Teqp.VLELoop

namespace Teqp.Props

/-! ## Specification of one run -/

/-- The step `dx` is below the step tolerance at the point `y` it leads to. -/
def StepSmall {κ : Type} (tol : VLETol) (dx y : κ → ℝ) : Prop := ∀ i, |dx i| < tol.axtol + tol.relxtol * |y i|

/-- The residual is below the residual tolerance as the code writes it (relative to itself). -/
def ResidSmall {κ : Type} (tol : VLETol) (r : κ → ℝ) : Prop := ∀ i, |r i| < tol.atol + tol.reltol * |r i|

/-- With a relative tolerance below one the residual test bounds the residual itself. -/
theorem resid_small_bound {κ : Type} {tol : VLETol} {r : κ → ℝ} (h : ResidSmall tol r) (h1 : tol.reltol < 1) (i : κ) :
    |r i| < tol.atol / (1 - tol.reltol) := by
  rw [lt_div_iff₀ (by linarith)]
  have := h i
  nlinarith

example : ResidSmall (κ := Fin 2) ⟨1e-3, 0.5, 0, 0⟩ (fun _ => 1e-3) ∧ ((0.5 : ℝ) < 1) := by
  refine ⟨fun i => ?_, by norm_num⟩
  norm_num [abs_of_pos]

/-- What the stopping tests decide. -/
theorem vleTests_spec {κ κ' : Type} (tol : VLETol) (y dx : κ → ℝ) (r : κ' → ℝ) (o : Option VLECode)
    (h : vleTests tol y dx r = o) :
    (o = some .xtolSatisfied ∧ (StepSmall tol dx y ∨ ∀ i, |y i - dx i| < dblMin)) ∨
    (o = some .functolSatisfied ∧ ResidSmall tol r ∧ ¬StepSmall tol dx y) ∨
    (o = none ∧ ¬StepSmall tol dx y ∧ ¬ResidSmall tol r) := by
  unfold vleTests at h
  by_cases h1 : ∀ i, |dx i| < tol.axtol + tol.relxtol * |y i|
  · rw [if_pos h1] at h; exact .inl ⟨h.symm, .inl h1⟩
  rw [if_neg h1] at h
  by_cases h2 : ∀ i, |r i| < tol.atol + tol.reltol * |r i|
  · rw [if_pos h2] at h; exact .inr (.inl ⟨h.symm, h2, h1⟩)
  rw [if_neg h2] at h
  by_cases h3 : ∀ i, |y i - dx i| < dblMin
  · rw [if_pos h3] at h; exact .inl ⟨h.symm, .inr h3⟩
  rw [if_neg h3] at h
  exact .inr (.inr ⟨h.symm, h1, h2⟩)

section Tx
variable (resid : (Fin 4 → ℝ) → Fin 4 → ℝ) (jac : (Fin 4 → ℝ) → Matrix (Fin 4) (Fin 4) ℝ)
    (solve : Matrix (Fin 4) (Fin 4) ℝ → (Fin 4 → ℝ) → Option (Fin 4 → ℝ)) (tol : VLETol) (xspec : Fin 2 → ℝ)

/-- The step the solver makes from `x`: the solution of the linearised system, limited, with absent components frozen. -/
def TxStep (x dx : Fin 4 → ℝ) : Prop :=
  bothPhases x ∧ ∃ d0 d1, solve (jac x) (fun i => -resid x i) = some d0 ∧ limitStep x d0 = .ok d1 ∧ dx = zeroStep xspec d1

/-- One pass of the loop of `mix_VLE_Tx`. -/
noncomputable def txPass (x : Fin 4 → ℝ) : Outcome (Option ((Fin 4 → ℝ) × Option VLECode)) :=
  open Classical in
  if bothPhases x then
    match solve (jac x) (fun i => -resid x i) with
    | none => .ok none
    | some dx0 => (limitStep x dx0).bind fun dx1 =>
      .ok (some (fun i => x i + zeroStep xspec dx1 i,
        vleTests tol (fun i => x i + zeroStep xspec dx1 i) (zeroStep xspec dx1) (resid x)))
  else .nonFinite

theorem txLoop_eq (n : ℕ) (x : Fin 4 → ℝ) :
    txLoop resid jac solve tol xspec n x = iterLoop (txPass resid jac solve tol xspec) n x := by
  induction n generalizing x with
  | zero => rfl
  | succ k ih =>
    simp only [txLoop, iterLoop, txPass]
    by_cases hb : bothPhases x
    · simp only [if_pos hb]
      cases hs : solve (jac x) (fun i => -resid x i) with
      | none => rfl
      | some dx0 =>
        cases hl : limitStep x dx0 with
        | ok dx1 =>
          simp only [hl, Outcome.bind_ok]
          cases ht : vleTests tol (fun i => x i + zeroStep xspec dx1 i) (zeroStep xspec dx1) (resid x) with
          | none => simp only [ih]
          | some c => rfl
        | throws e => simp only [hl, Outcome.bind_throws]
        | ub => simp only [hl, Outcome.bind_ub]
        | nonFinite => simp only [hl, Outcome.bind_nonFinite]
    · simp only [if_neg hb]; rfl

theorem txPass_some {x y : Fin 4 → ℝ} {o : Option VLECode}
    (h : txPass resid jac solve tol xspec x = .ok (some (y, o))) :
    ∃ dx, TxStep resid jac solve xspec x dx ∧ (∀ i, y i = x i + dx i) ∧ vleTests tol y dx (resid x) = o := by
  unfold txPass at h
  by_cases hb : bothPhases x
  · simp only [if_pos hb] at h
    cases hs : solve (jac x) (fun i => -resid x i) with
    | none => simp [hs] at h
    | some d0 =>
      simp only [hs] at h
      obtain ⟨d1, hl, h⟩ := Outcome.bind_eq_ok.mp h
      simp only [Outcome.ok.injEq, Option.some.injEq, Prod.mk.injEq] at h
      refine ⟨zeroStep xspec d1, ⟨hb, d0, d1, hs, hl, rfl⟩, fun i => ?_, ?_⟩
      · rw [← h.1]
      · rw [← h.1]; exact h.2
  · simp [if_neg hb] at h

theorem txPass_none {x : Fin 4 → ℝ} (h : txPass resid jac solve tol xspec x = .ok none) :
    solve (jac x) (fun i => -resid x i) = none := by
  unfold txPass at h
  by_cases hb : bothPhases x
  · simp only [if_pos hb] at h
    cases hs : solve (jac x) (fun i => -resid x i) with
    | none => rfl
    | some d0 =>
      simp only [hs] at h
      obtain ⟨d1, hl, h⟩ := Outcome.bind_eq_ok.mp h
      simp at h
  · simp [if_neg hb] at h

/-- C39, specification of a finished run: `k` steps that met neither tolerance, then the last one. -/
def TxRun (n : ℕ) (x : Fin 4 → ℝ) (c : VLECode) (y : Fin 4 → ℝ) : Prop :=
  ∃ k, k < n ∧ ∃ path : ℕ → Fin 4 → ℝ, path 0 = x ∧
    (∀ j, j < k → ∃ dx, TxStep resid jac solve xspec (path j) dx ∧ (∀ i, path (j + 1) i = path j i + dx i) ∧
      ¬StepSmall tol dx (path (j + 1)) ∧ ¬ResidSmall tol (resid (path j))) ∧
    ((c = .notfiniteStep ∧ y = path k ∧ solve (jac (path k)) (fun i => -resid (path k) i) = none) ∨
     ∃ dx, TxStep resid jac solve xspec (path k) dx ∧ (∀ i, y i = path k i + dx i) ∧
      ((c = .xtolSatisfied ∧ (StepSmall tol dx y ∨ ∀ i, |path k i| < dblMin)) ∨
       (c = .functolSatisfied ∧ ResidSmall tol (resid (path k))) ∨
       (c = .maxiterMet ∧ k + 1 = n ∧ ¬StepSmall tol dx y ∧ ¬ResidSmall tol (resid (path k)))))

theorem tx_loop_run (n : ℕ) (x y : Fin 4 → ℝ) (c : VLECode)
    (h : txLoop resid jac solve tol xspec n x = .ok (c, y)) :
    (n = 0 ∧ c = .unset ∧ y = x) ∨ TxRun resid jac solve tol xspec n x c y := by
  rw [txLoop_eq] at h
  rcases iterLoop_run _ n x c y h with h | ⟨k, hk, path, hp0, hp, he⟩
  · exact .inl h
  · right
    refine ⟨k, hk, path, hp0, fun j hj => ?_, ?_⟩
    · obtain ⟨dx, h1, h2, h3⟩ := txPass_some _ _ _ _ _ (hp j hj)
      rcases vleTests_spec _ _ _ _ _ h3 with ⟨h, _⟩ | ⟨h, _⟩ | ⟨_, h4, h5⟩
      · cases h
      · cases h
      · exact ⟨dx, h1, h2, h4, h5⟩
    · rcases he with ⟨rfl, rfl, h1⟩ | h1 | ⟨h1, rfl, hk1⟩
      · exact .inl ⟨rfl, rfl, txPass_none _ _ _ _ _ h1⟩
      · right
        obtain ⟨dx, h1, h2, h3⟩ := txPass_some _ _ _ _ _ h1
        refine ⟨dx, h1, h2, ?_⟩
        rcases vleTests_spec _ _ _ _ _ h3 with ⟨h, h4⟩ | ⟨h, h4, _⟩ | ⟨h, _⟩
        · simp only [Option.some.injEq] at h
          refine .inl ⟨h, h4.imp id fun h5 i => ?_⟩
          have := h5 i
          rwa [h2 i, add_sub_cancel_right] at this
        · simp only [Option.some.injEq] at h
          exact .inr (.inl ⟨h, h4⟩)
        · cases h
      · right
        obtain ⟨dx, h1, h2, h3⟩ := txPass_some _ _ _ _ _ h1
        refine ⟨dx, h1, h2, ?_⟩
        rcases vleTests_spec _ _ _ _ _ h3 with ⟨h, _⟩ | ⟨h, _⟩ | ⟨_, h4, h5⟩
        · cases h
        · cases h
        · exact .inr (.inr ⟨rfl, hk1, h4, h5⟩)

theorem zeroStep_absent (d : Fin 4 → ℝ) :
    (xspec 0 = 0 → zeroStep xspec d 0 = 0 ∧ zeroStep xspec d 2 = 0) ∧
    (xspec 1 = 0 → zeroStep xspec d 1 = 0 ∧ zeroStep xspec d 3 = 0) := by
  refine ⟨fun h => ?_, fun h => ?_⟩ <;> simp [zeroStep, h]

/-- Components specified to be absent are frozen in any number of iterations. -/
theorem tx_loop_absent (n : ℕ) (x y : Fin 4 → ℝ) (c : VLECode)
    (h : txLoop resid jac solve tol xspec n x = .ok (c, y)) :
    (xspec 0 = 0 → y 0 = x 0 ∧ y 2 = x 2) ∧ (xspec 1 = 0 → y 1 = x 1 ∧ y 3 = x 3) := by
  rw [txLoop_eq] at h
  refine iterLoop_invariant (txPass resid jac solve tol xspec)
    (fun t => (xspec 0 = 0 → t 0 = x 0 ∧ t 2 = x 2) ∧ (xspec 1 = 0 → t 1 = x 1 ∧ t 3 = x 3))
    (fun s t o hs ht => ?_) n x c y ⟨fun _ => ⟨rfl, rfl⟩, fun _ => ⟨rfl, rfl⟩⟩ h
  obtain ⟨dx, ⟨_, _, d1, _, _, rfl⟩, h2, _⟩ := txPass_some _ _ _ _ _ ht
  have hz := zeroStep_absent xspec d1
  refine ⟨fun h0 => ?_, fun h0 => ?_⟩
  · rw [h2, h2, (hz.1 h0).1, (hz.1 h0).2, add_zero, add_zero]; exact hs.1 h0
  · rw [h2, h2, (hz.2 h0).1, (hz.2 h0).2, add_zero, add_zero]; exact hs.2 h0

end Tx

section Entry
variable {m : EOS (Fin 2)} {solve : Matrix (Fin 4) (Fin 4) ℝ → (Fin 4 → ℝ) → Option (Fin 4 → ℝ)} {T : ℝ} {tol : VLETol}

/-- C37. A component whose specified mole fraction is zero keeps its concentrations in both phases. -/
theorem tx_absent_component {L0 V0 z L V : List ℝ} {maxiter : ℤ} {c : VLECode}
    (h : mixVLETx m solve T L0 V0 z tol maxiter = .ok (c, L, V)) (i : ℕ) (hi : z[i]? = some 0) :
    L[i]? = L0[i]? ∧ V[i]? = V0[i]? := by
  unfold mixVLETx at h
  split at h
  · split at h
    · obtain ⟨⟨c', y⟩, hl, h⟩ := Outcome.bind_eq_ok.mp h
      simp only [Outcome.ok.injEq, Prod.mk.injEq] at h
      obtain ⟨_, rfl, rfl⟩ := h
      have ha := tx_loop_absent _ _ _ _ _ _ _ _ _ hl
      match i, hi with
      | 0, hi =>
        have := ha.1 (by simpa using hi)
        simpa using this
      | 1, hi =>
        have := ha.2 (by simpa using hi)
        simpa using this
    · split at h
      · simp only [Outcome.ok.injEq, Prod.mk.injEq] at h
        obtain ⟨_, rfl, rfl⟩ := h
        exact ⟨rfl, rfl⟩
      · cases h
  · cases h

/-- C39. The return code of `mix_VLE_Tx` says how the run ended. -/
theorem tx_return_code {l0 l1 v0 v1 z0 z1 : ℝ} {L V : List ℝ} {maxiter : ℤ} {c : VLECode}
    (h : mixVLETx m solve T [l0, l1] [v0, v1] [z0, z1] tol maxiter = .ok (c, L, V)) :
    (maxiter ≤ 0 ∧ c = .unset ∧ L = [l0, l1] ∧ V = [v0, v1]) ∨
    ∃ y, L = [y 0, y 1] ∧ V = [y 2, y 3] ∧ TxRun (txResid m T ![z0, z1]) (txJac m T ![z0, z1]) solve tol ![z0, z1]
      maxiter.toNat ![l0, l1, v0, v1] c y := by
  unfold mixVLETx at h
  simp only [List.length_cons, List.length_nil, and_self, if_true] at h
  obtain ⟨⟨c', y⟩, hl, h⟩ := Outcome.bind_eq_ok.mp h
  simp only [Outcome.ok.injEq, Prod.mk.injEq] at h
  obtain ⟨rfl, rfl, rfl⟩ := h
  rcases tx_loop_run _ _ _ _ _ _ _ _ _ hl with ⟨h0, h1, rfl⟩ | hr
  · exact .inl ⟨by omega, h1, by simp, by simp⟩
  · exact .inr ⟨y, rfl, rfl, hr⟩

/-- C39. Vectors of different lengths are refused. -/
theorem tx_lengths_refused {L0 V0 z : List ℝ} {maxiter : ℤ} (h : ¬(L0.length = V0.length ∧ V0.length = z.length)) :
    mixVLETx m solve T L0 V0 z tol maxiter = .throws .invalidArgument := by
  unfold mixVLETx; rw [if_neg h]

end Entry

/-! ## The step limiter -/

theorem mem_stepRatios {n : ℕ} {x dx : Fin n → ℝ} (hx : ∀ i, 0 < x i) (f : ℝ) :
    f ∈ stepRatios x dx ↔ f ∈ Set.range fun i => dx i / -x i := by
  unfold stepRatios
  rw [List.mem_filterMap]
  constructor
  · rintro ⟨i, _, h⟩
    rw [if_neg (hx i).ne'] at h
    exact ⟨i, by simpa using h⟩
  · rintro ⟨i, rfl⟩
    exact ⟨i, List.mem_finRange i, by rw [if_neg (hx i).ne']⟩

/-- C37. What the limiter does at positive concentrations: nothing when the full step stays in the domain, and otherwise
multiply the step by half the *smallest* of the ratios `-dxᵢ/xᵢ`. -/
theorem limiter_spec {n : ℕ} {x dx : Fin n → ℝ} (hx : ∀ i, 0 < x i) :
    ((∀ i, 0 ≤ x i + dx i) → limitStep x dx = .ok dx) ∧
    ((∃ i, x i + dx i < 0) → ∃ f, IsLeast (Set.range fun i => dx i / -x i) f ∧
      limitStep x dx = .ok fun i => dx i * (f / 2)) := by
  constructor
  · intro h
    unfold limitStep
    rw [if_neg (by push Not; exact h)]
  · rintro ⟨j, hj⟩
    have hne : stepRatios x dx ≠ [] := fun h => by
      have := (mem_stepRatios (dx := dx) hx (dx j / -x j)).mpr ⟨j, rfl⟩
      rw [h] at this
      simp at this
    obtain ⟨f, hf⟩ := Option.isSome_iff_exists.mp (List.isSome_min?_of_mem ((mem_stepRatios hx _).mpr ⟨j, rfl⟩))
    have hf' := List.min?_eq_some_iff.mp hf
    refine ⟨f, ⟨(mem_stepRatios hx f).mp hf'.1, ?_⟩, ?_⟩
    · rintro b hb
      exact hf'.2 b ((mem_stepRatios hx b).mpr hb)
    · unfold limitStep
      rw [if_pos ⟨j, hj⟩, if_neg]
      · rw [hf]
      · rintro ⟨i, hi, _⟩
        exact (hx i).ne' hi

/-- C37, partial. A limited step from positive concentrations stays in the domain exactly when the product of the largest
ratio with the smallest one is at most two.  (The claim asks for it always.) -/
theorem limiter_nonneg_partial {n : ℕ} {x dx d : Fin n → ℝ} {f : ℝ} (hx : ∀ i, 0 < x i) (hneg : ∃ i, x i + dx i < 0)
    (hf : IsLeast (Set.range fun i => dx i / -x i) f) (h : limitStep x dx = .ok d) :
    (∀ i, 0 ≤ x i + d i) ↔ ∀ i, (dx i / -x i) * f ≤ 2 := by
  obtain ⟨g, hg, h2⟩ := (limiter_spec hx).2 hneg
  have hfg : f = g := hf.unique hg
  subst hfg
  rw [h2] at h
  simp only [Outcome.ok.injEq] at h
  subst h
  refine forall_congr' fun i => ?_
  have hi := hx i
  have e : x i + dx i * (f / 2) = x i * (1 - (dx i / -x i) * f / 2) := by
    field_simp
    ring
  rw [e]
  constructor
  · intro h3
    by_contra h4
    push Not at h4
    have : x i * (1 - (dx i / -x i) * f / 2) < 0 := mul_neg_of_pos_of_neg hi (by linarith)
    linarith
  · intro h3
    exact mul_nonneg hi.le (by linarith)

example : (∀ i : Fin 2, 0 < (fun _ => 1 : Fin 2 → ℝ) i) ∧ (∃ i : Fin 2, (fun _ => 1 : Fin 2 → ℝ) i + ![-2, 3] i < 0) ∧
    IsLeast (Set.range fun i : Fin 2 => (![-2, 3] : Fin 2 → ℝ) i / -(fun _ => 1 : Fin 2 → ℝ) i) (-3) := by
  refine ⟨fun _ => one_pos, ⟨0, by norm_num⟩, ⟨1, by norm_num⟩, ?_⟩
  rintro b ⟨i, rfl⟩
  fin_cases i <;> norm_num

/-! ## Ideal gas mixtures as test programs -/

/-- The ideal gas with unit gas constant. -/
noncomputable def idealMix : EOS (Fin 2) := ⟨fun _ _ _ => 0, fun _ => 1⟩

theorem idealMix_Psir (T : ℝ) : Psir idealMix T = fun _ => 0 := by
  funext r; simp [Psir, idealMix]

theorem idealMix_grad (T : ℝ) (ρ : Fin 2 → ℝ) (i : Fin 2) : gradPsir idealMix T ρ i = 0 := by
  simp [gradPsir, partialD, idealMix_Psir]

theorem idealMix_hess (T : ℝ) (ρ : Fin 2 → ℝ) (i j : Fin 2) : hessPsir idealMix T ρ i j = 0 := by
  simp [hessPsir, partialD2, partialD, idealMix_Psir]

/-- A linear solve that is exact on regular systems. -/
def ExactSolve {n : ℕ} (solve : Matrix (Fin n) (Fin n) ℝ → (Fin n → ℝ) → Option (Fin n → ℝ)) : Prop :=
  ∀ A b, A.det ≠ 0 → ∃ d, solve A b = some d ∧ A.mulVec d = b

open Classical in
example : ExactSolve (n := 4) fun A b => if A.det ≠ 0 then some (A⁻¹.mulVec b) else none := by
  intro A b hA
  refine ⟨A⁻¹.mulVec b, if_pos hA, ?_⟩
  rw [Matrix.mulVec_mulVec, Matrix.mul_nonsing_inv _ (isUnit_iff_ne_zero.mpr hA), Matrix.one_mulVec]

/-- The linear system of `mix_VLE_Tx` for the ideal gas at unit temperature, equation by equation. -/
theorem ideal_tx_system (l0 l1 v0 v1 : ℝ) (h0 : 0 < l0) (h1 : 0 < l1) (h2 : 0 < v0) (h3 : 0 < v1) (z d : Fin 4 → ℝ)
    (w : Fin 2 → ℝ) :
    (txJac idealMix 1 w ![l0, l1, v0, v1]).mulVec d = z ↔
      (1 / l0 * d 0 - 1 / v0 * d 2 = z 0 ∧ 1 / l1 * d 1 - 1 / v1 * d 3 = z 1 ∧ d 0 + d 1 - d 2 - d 3 = z 2 ∧
        l1 / ((l0 + l1) * (l0 + l1)) * d 0 - l0 / ((l0 + l1) * (l0 + l1)) * d 1 = z 3) := by
  have hR : idealMix.R w * 1 = 1 := by simp [idealMix]
  rw [funext_iff, Fin.forall_fin_succ, Fin.forall_fin_succ, Fin.forall_fin_succ, Fin.forall_fin_one]
  simp only [Matrix.mulVec, dotProduct, Fin.sum_univ_four, txJac, hR, idealMix_hess, idealDiag, idxNonzero, solverDp,
    liq, vap, rhotot, Fin.sum_univ_two]
  simp [h0, h1, h2, h3]
  refine ⟨fun ⟨a, b, c, e⟩ => ⟨?_, ?_, ?_, ?_⟩, fun ⟨a, b, c, e⟩ => ⟨?_, ?_, ?_, ?_⟩⟩ <;>
    first | linarith | skip
  all_goals (rw [← e]; ring)

theorem ideal_tx_resid (l0 l1 v0 v1 : ℝ) (h0 : 0 < l0) (h1 : 0 < l1) (h2 : 0 < v0) (h3 : 0 < v1) (w : Fin 2 → ℝ) :
    txResid idealMix 1 w ![l0, l1, v0, v1] =
      ![Real.log l0 - Real.log v0, Real.log l1 - Real.log v1, l0 + l1 - (v0 + v1), l0 / (l0 + l1) - w 0] := by
  have hR : idealMix.R w * 1 = 1 := by simp [idealMix]
  simp [txResid, hR, muResid, idxNonzero, idealMix_grad, liq, vap, h0, h1, h2, h3, solverP, idealMix_Psir, rhotot]

/-- A single pass of `mix_VLE_Tx` whose full step leaves the domain. -/
theorem ideal_tx_limited {solve : Matrix (Fin 4) (Fin 4) ℝ → (Fin 4 → ℝ) → Option (Fin 4 → ℝ)} (hs : ExactSolve solve)
    {l0 l1 v0 v1 z0 z1 : ℝ} (h0 : 0 < l0) (h1 : 0 < l1) (h2 : 0 < v0) (h3 : 0 < v1) (hz0 : z0 ≠ 0) (hz1 : z1 ≠ 0)
    (hdet : (txJac idealMix 1 ![z0, z1] ![l0, l1, v0, v1]).det ≠ 0) (d : Fin 4 → ℝ)
    (hd : (txJac idealMix 1 ![z0, z1] ![l0, l1, v0, v1]).mulVec d =
      fun i => -txResid idealMix 1 ![z0, z1] ![l0, l1, v0, v1] i)
    (hneg : ∃ i, (![l0, l1, v0, v1] : Fin 4 → ℝ) i + d i < 0) (f : ℝ)
    (hf : IsLeast (Set.range fun i => d i / -(![l0, l1, v0, v1] : Fin 4 → ℝ) i) f) (tol : VLETol) :
    txPass (txResid idealMix 1 ![z0, z1]) (txJac idealMix 1 ![z0, z1]) solve tol ![z0, z1] ![l0, l1, v0, v1] =
      .ok (some (fun i => ![l0, l1, v0, v1] i + d i * (f / 2),
        vleTests tol (fun i => ![l0, l1, v0, v1] i + d i * (f / 2)) (fun i => d i * (f / 2))
          (txResid idealMix 1 ![z0, z1] ![l0, l1, v0, v1]))) := by
  have hx : ∀ i, 0 < (![l0, l1, v0, v1] : Fin 4 → ℝ) i := by
    intro i; fin_cases i <;> assumption
  obtain ⟨d', hd1, hd2⟩ := hs _ (fun i => -txResid idealMix 1 ![z0, z1] ![l0, l1, v0, v1] i) hdet
  have hdd : d' = d := by
    have : (txJac idealMix 1 ![z0, z1] ![l0, l1, v0, v1]).mulVec (d' - d) = 0 := by
      rw [Matrix.mulVec_sub, hd2, hd, sub_self]
    by_contra hne
    exact hdet (Matrix.exists_mulVec_eq_zero_iff.mp ⟨d' - d, sub_ne_zero.mpr hne, this⟩)
  subst hdd
  obtain ⟨g, hg, hl⟩ := (limiter_spec hx).2 hneg
  have hfg : g = f := hg.unique hf
  subst hfg
  have hz : zeroStep ![z0, z1] (fun i => d' i * (g / 2)) = fun i => d' i * (g / 2) := by
    funext i; fin_cases i <;> simp [zeroStep, hz0, hz1]
  have hb : bothPhases ![l0, l1, v0, v1] := by
    constructor <;> simp [rhotot, liq, vap] <;> positivity
  simp only [txPass, if_pos hb, hd1, hl, Outcome.bind_ok, hz]

theorem exp_neg_five_bounds : 0 < Real.exp (-5) ∧ Real.exp (-5) < 1 / 100 := by
  refine ⟨Real.exp_pos _, ?_⟩
  have h1 : (2.7 : ℝ) ^ 5 < Real.exp 5 := by
    have h2 : (2.7 : ℝ) < Real.exp 1 := lt_trans (by norm_num) Real.exp_one_gt_d9
    have h3 : Real.exp 5 = Real.exp 1 ^ 5 := by rw [← Real.exp_nat_mul]; norm_num
    rw [h3]
    exact pow_lt_pow_left₀ h2 (by norm_num) (by norm_num)
  rw [Real.exp_neg, inv_lt_comm₀ (Real.exp_pos _) (by norm_num)]
  refine lt_trans ?_ h1
  norm_num

/-- C37, negative result. For the ideal gas with all concentrations positive and the linear system solved exactly, one
iteration of `mix_VLE_Tx` returns a negative vapor concentration: the limiter reverses and enlarges the step. -/
theorem tx_returns_negative_concentration
    {solve : Matrix (Fin 4) (Fin 4) ℝ → (Fin 4 → ℝ) → Option (Fin 4 → ℝ)} (hs : ExactSolve solve) (tol : VLETol) :
    ∃ c a b u v, mixVLETx idealMix solve 1 [1, 1] [1, Real.exp (-5)] [2 / 5, 3 / 5] tol 1 = .ok (c, [a, b], [u, v]) ∧
      v < 0 := by
  obtain ⟨hq0, hq1⟩ := exp_neg_five_bounds
  have hlog : Real.log (Real.exp (-5)) = -5 := Real.log_exp _
  set q := Real.exp (-5) with hq
  clear_value q
  have h1q : 0 < 1 - q := by linarith
  obtain ⟨g, hg⟩ : ∃ g, g = (q + 4) / (1 - q) := ⟨_, rfl⟩
  have hg1 : g * (1 - q) = q + 4 := by rw [hg]; field_simp
  have hg4 : 4 < g := by rw [hg, lt_div_iff₀ h1q]; nlinarith
  have hg5 : g < 5 := by rw [hg, div_lt_iff₀ h1q]; nlinarith
  let d : Fin 4 → ℝ := ![q * g + q - 1 - 2 / 5, q * g + q - 1, q * g + q - 1 - 2 / 5, q * g]
  have hsys := ideal_tx_system 1 1 1 q one_pos one_pos one_pos hq0
  have hres := ideal_tx_resid 1 1 1 q one_pos one_pos one_pos hq0 ![2 / 5, 3 / 5]
  have hdet : (txJac idealMix 1 ![2 / 5, 3 / 5] ![1, 1, 1, q]).det ≠ 0 := by
    intro h
    obtain ⟨v, hv, hv0⟩ := Matrix.exists_mulVec_eq_zero_iff.mpr h
    rw [hsys] at hv0
    obtain ⟨e0, e1, e2, e3⟩ := hv0
    simp only [Pi.zero_apply] at e0 e1 e2 e3
    have e4 : v 3 = q * v 1 := by
      field_simp at e1
      linarith
    have e5 : v 1 * (1 - q) = 0 := by linarith
    have e6 : v 1 = 0 := (mul_eq_zero.mp e5).resolve_right h1q.ne'
    apply hv
    funext i
    fin_cases i <;> simp only [Pi.zero_apply] <;> simp <;> nlinarith
  have hd : (txJac idealMix 1 ![2 / 5, 3 / 5] ![1, 1, 1, q]).mulVec d =
      fun i => -txResid idealMix 1 ![2 / 5, 3 / 5] ![1, 1, 1, q] i := by
    rw [hsys, hres]
    simp only [d, hlog, Real.log_one]
    refine ⟨?_, ?_, ?_, ?_⟩
    · simp
    · simp
      field_simp
      linarith
    · simp
      ring
    · simp
      ring
  have hneg : ∃ i, (![1, 1, 1, q] : Fin 4 → ℝ) i + d i < 0 := by
    refine ⟨0, ?_⟩
    simp [d]
    nlinarith
  have hf : IsLeast (Set.range fun i => d i / -(![1, 1, 1, q] : Fin 4 → ℝ) i) (-g) := by
    refine ⟨⟨3, ?_⟩, ?_⟩
    · simp [d]
      field_simp
    · rintro b ⟨i, rfl⟩
      fin_cases i <;> simp [d]
      · nlinarith
      · nlinarith
      · nlinarith
      · field_simp
        exact le_refl _
  have hp := ideal_tx_limited hs one_pos one_pos one_pos hq0 (by norm_num) (by norm_num) hdet d hd hneg (-g) hf tol
  have hv : q + q * g * (-g / 2) < 0 := by
    have : q + q * g * (-g / 2) = q * (1 - g * g / 2) := by ring
    rw [this]
    exact mul_neg_of_pos_of_neg hq0 (by nlinarith)
  have hrun : ∃ c, txLoop (txResid idealMix 1 ![2 / 5, 3 / 5]) (txJac idealMix 1 ![2 / 5, 3 / 5]) solve tol
      ![2 / 5, 3 / 5] 1 ![1, 1, 1, q] = .ok (c, fun i => ![1, 1, 1, q] i + d i * (-g / 2)) := by
    rw [txLoop_eq]
    simp only [iterLoop, hp, Outcome.bind_ok]
    cases vleTests tol (fun i => (![1, 1, 1, q] : Fin 4 → ℝ) i + d i * (-g / 2)) (fun i => d i * (-g / 2))
      (txResid idealMix 1 ![2 / 5, 3 / 5] ![1, 1, 1, q]) with
    | none => exact ⟨_, rfl⟩
    | some c => exact ⟨_, rfl⟩
  obtain ⟨c, hc⟩ := hrun
  refine ⟨c, 1 + d 0 * (-g / 2), 1 + d 1 * (-g / 2), 1 + d 2 * (-g / 2), q + q * g * (-g / 2), ?_, hv⟩
  unfold mixVLETx
  simp only [List.length_cons, List.length_nil, and_self, if_true]
  have : (1 : ℤ).toNat = 1 := rfl
  rw [this, hc]
  simp [d]

/-- C39, negative result. For the ideal gas the solver reports `xtol_satisfied` at the very first iteration and returns
the starting point, whose phases have pressures 2 and 5/2: the limiter has multiplied the step by zero. -/
theorem tx_false_convergence
    {solve : Matrix (Fin 4) (Fin 4) ℝ → (Fin 4 → ℝ) → Option (Fin 4 → ℝ)} (hs : ExactSolve solve) (tol : VLETol)
    (ha : 0 < tol.axtol) (hr : 0 ≤ tol.relxtol) (n : ℕ) :
    mixVLETx idealMix solve 1 [1, 1] [2, 1 / 2] [1 / 4 + 3 / 4 * Real.log 2, 3 / 4 - 3 / 4 * Real.log 2] tol (n + 1) =
      .ok (.xtolSatisfied, [1, 1], [2, 1 / 2]) ∧
    mixP idealMix.alphar 1 1 (vec2 1 1) = 2 ∧ mixP idealMix.alphar 1 1 (vec2 2 (1 / 2)) = 5 / 2 := by
  have hl1 : 0.6931471803 < Real.log 2 := Real.log_two_gt_d9
  have hl2 : Real.log 2 < 0.6931471808 := Real.log_two_lt_d9
  have hlog : Real.log (1 / 2) = -Real.log 2 := by rw [one_div, Real.log_inv]
  obtain ⟨w0, hw0⟩ : ∃ w, w = 1 / 4 + 3 / 4 * Real.log 2 := ⟨_, rfl⟩
  obtain ⟨w1, hw1⟩ : ∃ w, w = 3 / 4 - 3 / 4 * Real.log 2 := ⟨_, rfl⟩
  rw [← hw0, ← hw1]
  set ℓ := Real.log 2 with hℓ
  have hhalf : (0 : ℝ) < 1 / 2 := by norm_num
  let d : Fin 4 → ℝ := ![0, 1 - 3 * ℓ, -2 * ℓ, (1 - 2 * ℓ) / 2]
  have hsys := ideal_tx_system 1 1 2 (1 / 2) one_pos one_pos two_pos hhalf
  have hres := ideal_tx_resid 1 1 2 (1 / 2) one_pos one_pos two_pos hhalf ![w0, w1]
  refine ⟨?_, ?_, ?_⟩
  · have hdet : (txJac idealMix 1 ![w0, w1] ![1, 1, 2, 1 / 2]).det ≠ 0 := by
      intro h
      obtain ⟨v, hv, hv0⟩ := Matrix.exists_mulVec_eq_zero_iff.mpr h
      rw [hsys] at hv0
      obtain ⟨e0, e1, e2, e3⟩ := hv0
      simp only [Pi.zero_apply] at e0 e1 e2 e3
      norm_num at e0 e1 e2 e3
      apply hv
      funext i
      fin_cases i <;> simp only [Pi.zero_apply] <;> simp <;> linarith
    have hd : (txJac idealMix 1 ![w0, w1] ![1, 1, 2, 1 / 2]).mulVec d =
        fun i => -txResid idealMix 1 ![w0, w1] ![1, 1, 2, 1 / 2] i := by
      rw [hsys, hres]
      simp only [d, hlog, Real.log_one, ← hℓ]
      refine ⟨?_, ?_, ?_, ?_⟩ <;> simp [hw0] <;> ring
    have hneg : ∃ i, (![1, 1, 2, 1 / 2] : Fin 4 → ℝ) i + d i < 0 := by
      refine ⟨1, ?_⟩
      simp [d]
      linarith
    have hf : IsLeast (Set.range fun i => d i / -(![1, 1, 2, 1 / 2] : Fin 4 → ℝ) i) 0 := by
      refine ⟨⟨0, by simp [d]⟩, ?_⟩
      rintro b ⟨i, rfl⟩
      have e3 : (1 - 2 * ℓ) / 2 / -2⁻¹ = 2 * ℓ - 1 := by ring
      fin_cases i <;> simp [d] <;> linarith
    have hp := ideal_tx_limited hs one_pos one_pos two_pos hhalf (z0 := w0) (z1 := w1) (by rw [hw0]; linarith)
      (by rw [hw1]; linarith) hdet d hd hneg 0 hf tol
    simp only [zero_div, mul_zero, add_zero] at hp
    have ht : ∀ r, vleTests tol (fun i => (![1, 1, 2, 1 / 2] : Fin 4 → ℝ) i) (fun _ => 0) (r : Fin 4 → ℝ) =
        some .xtolSatisfied := by
      intro r
      unfold vleTests
      rw [if_pos]
      intro i
      have : 0 ≤ tol.relxtol * |(![1, 1, 2, 1 / 2] : Fin 4 → ℝ) i| := mul_nonneg hr (abs_nonneg _)
      simp only [abs_zero]
      linarith
    rw [ht] at hp
    unfold mixVLETx
    simp only [List.length_cons, List.length_nil, and_self, if_true]
    have : ((n : ℤ) + 1).toNat = n + 1 := by omega
    rw [this, txLoop_eq]
    simp only [iterLoop, hp, Outcome.bind_ok]
    simp
  · simp [mixP, totalPressure, pressure, helmholtz, idealMix, vec2]
    norm_num
  · simp [mixP, totalPressure, pressure, helmholtz, idealMix, vec2]
    norm_num

/-! ## Absent components in the Newton system -/

/-- C37, negative result. With the second component absent (`xspec = (1, 0)`), let both phases hold the first component
at equilibrium.  Unless the residual chemical potentials of the absent component happen to agree, the exact Newton step
moves a concentration of the *present* component away from the solution: the frozen unknown is solved for and dropped. -/
theorem tx_absent_component_disturbs_solution {m : EOS (Fin 2)} {T l v : ℝ} (hl : 0 < l) {d : Fin 4 → ℝ}
    (h0 : txResid m T ![1, 0] ![l, 0, v, 0] 0 = 0)
    (h1 : txResid m T ![1, 0] ![l, 0, v, 0] 1 ≠ 0)
    (hdp : hessPsir m T (vec2 v 0) 0 1 ≠ 0)
    (hd : (txJac m T ![1, 0] ![l, 0, v, 0]).mulVec d = fun i => -txResid m T ![1, 0] ![l, 0, v, 0] i) :
    d 0 ≠ 0 ∨ d 2 ≠ 0 := by
  by_contra hcon
  push Not at hcon
  obtain ⟨hd0, hd2⟩ := hcon
  have e0 := congrFun hd 0
  have e1 := congrFun hd 1
  have e3 := congrFun hd 3
  have hr3 : txResid m T ![1, 0] ![l, 0, v, 0] 3 = 0 := by
    simp [txResid, liq, rhotot, hl.ne']
  simp only [h0, hr3, neg_zero] at e0 e3
  have hd1 : d 1 = 0 := by
    simp only [Matrix.mulVec, dotProduct, Fin.sum_univ_four, txJac, hd0, hd2] at e3
    simp [liq, rhotot, hl.ne'] at e3
    exact e3
  have hd3 : d 3 ≠ 0 := by
    intro h3
    have : (txJac m T ![1, 0] ![l, 0, v, 0]).mulVec d 1 = 0 := by
      simp [Matrix.mulVec, dotProduct, Fin.sum_univ_four, hd0, hd1, hd2, h3]
    rw [this] at e1
    exact h1 (by linarith)
  simp only [Matrix.mulVec, dotProduct, Fin.sum_univ_four, txJac, hd0, hd1, hd2] at e0
  simp only [mul_zero, zero_add] at e0
  have : hessPsir m T (vec2 v 0) 0 1 * d 3 = 0 := by
    have h5 : vap ![l, 0, v, 0] = vec2 v 0 := by funext i; fin_cases i <;> rfl
    rw [h5] at e0
    simpa using e0
  rcases mul_eq_zero.mp this with h | h
  · exact hdp h
  · exact hd3 h

example : txResid Sample.quad 1 ![1, 0] ![2, 0, 1, 0] 0 = 0 ∧ txResid Sample.quad 1 ![1, 0] ![2, 0, 1, 0] 1 ≠ 0 ∧
    hessPsir Sample.quad 1 (vec2 1 0) 0 1 ≠ 0 := by
  have h1 : rhotot (liq ![2, 0, 1, 0]) ≠ 0 := by simp [rhotot, liq]
  have h2 : rhotot (vap ![2, 0, 1, 0]) ≠ 0 := by simp [rhotot, vap]
  have h3 : rhotot (vec2 1 0) ≠ 0 := by simp [rhotot, vec2]
  refine ⟨?_, ?_, by rw [Sample.quad_hess01 _ h3]; norm_num⟩
  · simp [txResid, muResid, idxNonzero, Sample.quad_R, (Sample.quad_grad _ h1).1, (Sample.quad_grad _ h2).1]
    simp [liq, vap]
    ring
  · simp [txResid, muResid, idxNonzero, Sample.quad_R, (Sample.quad_grad _ h1).2, (Sample.quad_grad _ h2).2]
    simp [liq, vap]
    norm_num

/-! ## Temperature and pressure specified -/

/-- C39, negative result. `mix_VLE_Tp` never reports success and never sets its return code. -/
theorem tp_never_reports {m : EOS (Fin 2)} {solve : Matrix (Fin 4) (Fin 4) ℝ → (Fin 4 → ℝ) → Option (Fin 4 → ℝ)}
    {T p : ℝ} {L0 V0 : List ℝ} {maxiter : ℤ} {r : MixVLEReturn}
    (h : mixVLETp m solve T p L0 V0 maxiter = .ok r) : r.success = false ∧ r.code = .unset := by
  unfold mixVLETp at h
  split at h
  · split at h
    · obtain ⟨x, _, h⟩ := Outcome.bind_eq_ok.mp h
      simp only [Outcome.ok.injEq] at h
      subst h
      exact ⟨rfl, rfl⟩
    · cases h
  · cases h

theorem tpLoop_fixed {resid : (Fin 4 → ℝ) → Fin 4 → ℝ} {jac : (Fin 4 → ℝ) → Matrix (Fin 4) (Fin 4) ℝ}
    {solve : Matrix (Fin 4) (Fin 4) ℝ → (Fin 4 → ℝ) → Option (Fin 4 → ℝ)} {x : Fin 4 → ℝ} (hb : bothPhases x)
    (hr : ∀ i, resid x i = 0) (hs : solve (jac x) (fun _ => 0) = some fun _ => 0) (hx : ∀ i, 0 ≤ x i) (n : ℕ) :
    tpLoop resid jac solve n x = .ok x := by
  have h0 : (fun i => -resid x i) = fun _ => (0 : ℝ) := by funext i; rw [hr i, neg_zero]
  have hl : limitStep x (fun _ => 0) = .ok fun _ => 0 := by
    unfold limitStep
    rw [if_neg]
    push Not
    intro i
    rw [add_zero]
    exact hx i
  induction n with
  | zero => rfl
  | succ k ih =>
    simp only [tpLoop, if_pos hb, h0, hs, hl, Outcome.bind_ok, add_zero]
    exact ih

/-- C39, negative result. Started at an exact solution, with a linear solve that maps zero to zero, `mix_VLE_Tp` stays
there and returns a zero residual together with `success = false`, for every number of iterations. -/
theorem tp_solution_reported_as_failure {m : EOS (Fin 2)}
    {solve : Matrix (Fin 4) (Fin 4) ℝ → (Fin 4 → ℝ) → Option (Fin 4 → ℝ)} {T p l0 l1 v0 v1 : ℝ}
    (hx : ∀ i, 0 < (![l0, l1, v0, v1] : Fin 4 → ℝ) i) (hr : ∀ i, tpResid m T p ![l0, l1, v0, v1] i = 0)
    (hs : ∀ J, solve J (fun _ => 0) = some fun _ => 0) (maxiter : ℤ) :
    ∃ r, mixVLETp m solve T p [l0, l1] [v0, v1] maxiter = .ok r ∧ (∀ i, r.r i = 0) ∧
      r.rhovecL = [l0, l1] ∧ r.rhovecV = [v0, v1] ∧ r.success = false ∧ r.code = .unset := by
  have hb : bothPhases ![l0, l1, v0, v1] := by
    have h0 := hx 0
    have h1 := hx 1
    have h2 := hx 2
    have h3 := hx 3
    simp at h0 h1 h2 h3
    constructor <;> simp [rhotot, liq, vap] <;> positivity
  have hl := tpLoop_fixed (resid := tpResid m T p) (jac := tpJac m T p) hb hr (hs _) (fun i => (hx i).le) maxiter.toNat
  unfold mixVLETp
  simp only [List.length_cons, List.length_nil, if_true, hl, Outcome.bind_ok]
  exact ⟨_, rfl, hr, by simp, by simp, rfl, rfl⟩

theorem ideal_tp_resid (x : Fin 4 → ℝ) (hx : ∀ i, 0 < x i) (p : ℝ) :
    tpResid idealMix 1 p x =
      ![Real.log (x 0) - Real.log (x 2), Real.log (x 1) - Real.log (x 3), (x 2 + x 3 - p) / p, (x 0 + x 1 - p) / p] := by
  have hR : ∀ w, idealMix.R w = 1 := fun _ => rfl
  simp [tpResid, hR, idealMix_grad, muResid, idxNonzero, liq, vap, hx, solverP, idealMix_Psir, rhotot]

example : ∀ i, tpResid idealMix 1 3 ![1, 2, 1, 2] i = 0 := by
  have hx : ∀ i, 0 < (![1, 2, 1, 2] : Fin 4 → ℝ) i := by
    intro i; fin_cases i <;> simp
  rw [ideal_tp_resid _ hx]
  intro i
  fin_cases i <;> simp <;> norm_num

/-! ## Pressure and composition specified -/

section Px
variable {N : ℕ} (resid : ℝ → (Fin N → ℝ) → (Fin N → ℝ) → PxEq N → ℝ)
    (jac : ℝ → (Fin N → ℝ) → (Fin N → ℝ) → PxEq N → PxVar N → ℝ)
    (solve : (PxEq N → PxVar N → ℝ) → (PxEq N → ℝ) → Option (PxVar N → ℝ)) (tol : VLETol) (T0 : ℝ)

/-- The full Newton step from `s` to `t`. -/
def PxStep (s t : PxState N) (dx : PxVar N → ℝ) : Prop :=
  (∀ i, 0 < s.L i) ∧ (∀ i, 0 < s.V i) ∧ solve (jac s.T s.L s.V) (fun e => -resid s.T s.L s.V e) = some dx ∧
  t.T = s.T + dx (.inl ()) ∧ (∀ i, t.L i = s.L i + dx (.inr (.inl i))) ∧ ∀ i, t.V i = s.V i + dx (.inr (.inr i))

/-- One pass of the loop of `mixture_VLE_px`. -/
noncomputable def pxPass (s : PxState N) : Outcome (Option (PxState N × Option VLECode)) :=
  open Classical in
  if (∀ i, 0 < s.L i) ∧ (∀ i, 0 < s.V i) then
    match solve (jac s.T s.L s.V) (fun e => -resid s.T s.L s.V e) with
    | none => .ok none
    | some dx => .ok (some (⟨s.T + dx (.inl ()), fun i => s.L i + dx (.inr (.inl i)), fun i => s.V i + dx (.inr (.inr i))⟩,
        vleTests tol (pxVec T0 (fun i => s.L i + dx (.inr (.inl i))) (fun i => s.V i + dx (.inr (.inr i)))) dx
          (resid s.T s.L s.V)))
  else .nonFinite

theorem pxLoop_eq (n : ℕ) (s : PxState N) :
    pxLoop resid jac solve tol T0 n s = iterLoop (pxPass resid jac solve tol T0) n s := by
  induction n generalizing s with
  | zero => rfl
  | succ k ih =>
    simp only [pxLoop, iterLoop, pxPass]
    by_cases hb : (∀ i, 0 < s.L i) ∧ (∀ i, 0 < s.V i)
    · simp only [if_pos hb]
      cases hs : solve (jac s.T s.L s.V) (fun e => -resid s.T s.L s.V e) with
      | none => rfl
      | some dx =>
        simp only [Outcome.bind_ok]
        cases ht : vleTests tol (pxVec T0 (fun i => s.L i + dx (.inr (.inl i))) (fun i => s.V i + dx (.inr (.inr i)))) dx
          (resid s.T s.L s.V) with
        | none => simp only [ih]
        | some c => rfl
    · simp only [if_neg hb]; rfl

theorem pxPass_some {s t : PxState N} {o : Option VLECode} (h : pxPass resid jac solve tol T0 s = .ok (some (t, o))) :
    ∃ dx, PxStep resid jac solve s t dx ∧ vleTests tol (pxVec T0 t.L t.V) dx (resid s.T s.L s.V) = o := by
  unfold pxPass at h
  by_cases hb : (∀ i, 0 < s.L i) ∧ (∀ i, 0 < s.V i)
  · simp only [if_pos hb] at h
    cases hs : solve (jac s.T s.L s.V) (fun e => -resid s.T s.L s.V e) with
    | none => simp [hs] at h
    | some dx =>
      simp only [hs, Outcome.ok.injEq, Option.some.injEq, Prod.mk.injEq] at h
      obtain ⟨rfl, h⟩ := h
      exact ⟨dx, ⟨hb.1, hb.2, hs, rfl, fun _ => rfl, fun _ => rfl⟩, h⟩
  · simp [if_neg hb] at h

theorem pxPass_none {s : PxState N} (h : pxPass resid jac solve tol T0 s = .ok none) :
    solve (jac s.T s.L s.V) (fun e => -resid s.T s.L s.V e) = none := by
  unfold pxPass at h
  by_cases hb : (∀ i, 0 < s.L i) ∧ (∀ i, 0 < s.V i)
  · simp only [if_pos hb] at h
    cases hs : solve (jac s.T s.L s.V) (fun e => -resid s.T s.L s.V e) with
    | none => rfl
    | some dx => simp [hs] at h
  · simp [if_neg hb] at h

/-- C39, specification of a finished run of `mixture_VLE_px`.  The step in temperature is compared with the *starting*
temperature. -/
def PxRun (n : ℕ) (s : PxState N) (c : VLECode) (t : PxState N) : Prop :=
  ∃ k, k < n ∧ ∃ path : ℕ → PxState N, path 0 = s ∧
    (∀ j, j < k → ∃ dx, PxStep resid jac solve (path j) (path (j + 1)) dx ∧
      ¬StepSmall tol dx (pxVec T0 (path (j + 1)).L (path (j + 1)).V) ∧
      ¬ResidSmall tol (resid (path j).T (path j).L (path j).V)) ∧
    ((c = .notfiniteStep ∧ t = path k ∧
        solve (jac (path k).T (path k).L (path k).V) (fun e => -resid (path k).T (path k).L (path k).V e) = none) ∨
     ∃ dx, PxStep resid jac solve (path k) t dx ∧
      ((c = .xtolSatisfied ∧ (StepSmall tol dx (pxVec T0 t.L t.V) ∨
          ∀ i, |pxVec T0 t.L t.V i - dx i| < dblMin)) ∨
       (c = .functolSatisfied ∧ ResidSmall tol (resid (path k).T (path k).L (path k).V)) ∨
       (c = .maxiterMet ∧ k + 1 = n ∧ ¬StepSmall tol dx (pxVec T0 t.L t.V) ∧
          ¬ResidSmall tol (resid (path k).T (path k).L (path k).V))))

theorem px_loop_run (n : ℕ) (s t : PxState N) (c : VLECode)
    (h : pxLoop resid jac solve tol T0 n s = .ok (c, t)) :
    (n = 0 ∧ c = .unset ∧ t = s) ∨ PxRun resid jac solve tol T0 n s c t := by
  rw [pxLoop_eq] at h
  rcases iterLoop_run _ n s c t h with h | ⟨k, hk, path, hp0, hp, he⟩
  · exact .inl h
  · right
    refine ⟨k, hk, path, hp0, fun j hj => ?_, ?_⟩
    · obtain ⟨dx, h1, h3⟩ := pxPass_some _ _ _ _ _ (hp j hj)
      rcases vleTests_spec _ _ _ _ _ h3 with ⟨h, _⟩ | ⟨h, _⟩ | ⟨_, h4, h5⟩
      · cases h
      · cases h
      · exact ⟨dx, h1, h4, h5⟩
    · rcases he with ⟨rfl, rfl, h1⟩ | h1 | ⟨h1, rfl, hk1⟩
      · exact .inl ⟨rfl, rfl, pxPass_none _ _ _ _ _ h1⟩
      · right
        obtain ⟨dx, h1, h3⟩ := pxPass_some _ _ _ _ _ h1
        refine ⟨dx, h1, ?_⟩
        rcases vleTests_spec _ _ _ _ _ h3 with ⟨h, h4⟩ | ⟨h, h4, _⟩ | ⟨h, _⟩
        · simp only [Option.some.injEq] at h
          exact .inl ⟨h, h4⟩
        · simp only [Option.some.injEq] at h
          exact .inr (.inl ⟨h, h4⟩)
        · cases h
      · right
        obtain ⟨dx, h1, h3⟩ := pxPass_some _ _ _ _ _ h1
        refine ⟨dx, h1, ?_⟩
        rcases vleTests_spec _ _ _ _ _ h3 with ⟨h, _⟩ | ⟨h, _⟩ | ⟨_, h4, h5⟩
        · cases h
        · cases h
        · exact .inr (.inr ⟨rfl, hk1, h4, h5⟩)

end Px

/-- C39. `mixture_VLE_px` refuses vectors of different lengths and vectors with a zero entry; otherwise its return code
says how the run ended. -/
theorem px_return_code {N : ℕ} {m : EOS (Fin N)}
    {solve : (PxEq N → PxVar N → ℝ) → (PxEq N → ℝ) → Option (PxVar N → ℝ)} {p T0 : ℝ} {z L0 V0 : List ℝ} {tol : VLETol}
    {maxiter : ℤ} :
    (¬(L0.length = V0.length ∧ V0.length = z.length) ∨ (0 : ℝ) ∈ V0 ∨ (0 : ℝ) ∈ L0 →
      mixVLEpx m solve p T0 z L0 V0 tol maxiter = .throws .invalidArgument) ∧
    (∀ c s, mixVLEpx m solve p T0 z L0 V0 tol maxiter = .ok (c, s) →
      ∃ x l v : Fin N → ℝ, z = List.ofFn x ∧ L0 = List.ofFn l ∧ V0 = List.ofFn v ∧
        ((maxiter ≤ 0 ∧ c = .unset ∧ s = ⟨T0, l, v⟩) ∨
          PxRun (pxResid m p x) (pxJac m p x) solve tol T0 maxiter.toNat ⟨T0, l, v⟩ c s)) := by
  constructor
  · intro h
    unfold mixVLEpx
    by_cases h1 : L0.length = V0.length ∧ V0.length = z.length
    · rw [if_pos h1]
      have h := h.resolve_left (not_not.mpr h1)
      by_cases h2 : ∃ v ∈ V0, v = 0
      · rw [if_pos h2]
      · rw [if_neg h2]
        rw [if_pos]
        rcases h with h | h
        · exact absurd ⟨0, h, rfl⟩ h2
        · exact ⟨0, h, rfl⟩
    · rw [if_neg h1]
  · intro c s h
    unfold mixVLEpx at h
    split at h
    · rename_i h1
      split at h
      · cases h
      · split at h
        · cases h
        · split at h
          · rename_i hN
            subst hN
            refine ⟨fun i => z[i]?.getD 0, fun i => L0[i], fun i => V0[i]?.getD 0, ?_, ?_, ?_, ?_⟩
            · apply List.ext_getElem
              · simp; omega
              · intro i hi hi'; simp [List.getElem?_eq_getElem hi]
            · apply List.ext_getElem
              · simp
              · intro i hi hi'; simp
            · apply List.ext_getElem
              · simp; omega
              · intro i hi hi'; simp [List.getElem?_eq_getElem hi]
            · rcases px_loop_run _ _ _ _ _ _ _ _ _ h with ⟨h0, h1, rfl⟩ | hr
              · exact .inl ⟨by omega, h1, rfl⟩
              · exact .inr hr
          · cases h
    · cases h

/-- C39. The number of components of the model is not compared with the length of the vectors. -/
theorem px_other_count {N : ℕ} (m : EOS (Fin N)) (solve : (PxEq N → PxVar N → ℝ) → (PxEq N → ℝ) → Option (PxVar N → ℝ)) (p T0 : ℝ)
    (z L0 V0 : List ℝ) (tol : VLETol) (maxiter : ℤ) (h1 : L0.length = V0.length) (h2 : V0.length = z.length) (hN : L0.length ≠ N)
    (hV : (0 : ℝ) ∉ V0) (hL : (0 : ℝ) ∉ L0) : mixVLEpx m solve p T0 z L0 V0 tol maxiter = .ub := by
  unfold mixVLEpx
  rw [if_pos ⟨h1, h2⟩, if_neg (fun ⟨v, hv, e⟩ => hV (e ▸ hv)), if_neg (fun ⟨v, hv, e⟩ => hL (e ▸ hv)), dif_neg hN]

example (m : EOS (Fin 2)) (solve : (PxEq 2 → PxVar 2 → ℝ) → (PxEq 2 → ℝ) → Option (PxVar 2 → ℝ)) (tol : VLETol) :
    mixVLEpx m solve 1e5 300 [1] [8000] [40] tol 10 = .ub :=
  px_other_count m solve _ _ _ _ _ _ _ rfl rfl (by norm_num) (by norm_num) (by norm_num)

/-- C39. The bound of the last stopping test is the least positive normal number of binary64. -/
theorem dblMin_binary64 : dblMin = (2 : ℝ) ^ (-1022 : ℤ) := by
  unfold dblMin
  rw [zpow_neg]
  rfl

end Teqp.Props

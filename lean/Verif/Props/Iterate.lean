import Verif.Model.Iterate
import Verif.Props.IterationJv
import Verif.Lemmas.Outcome
import Mathlib.Tactic.FinCases
import Mathlib.Analysis.SpecialFunctions.Log.Basic
import Mathlib.Analysis.SpecialFunctions.ExpDeriv
import Mathlib.LinearAlgebra.Matrix.Determinant.Basic
import Mathlib.Tactic.NormNum.BigOperators

/-! # The iterator for pairs of properties (C47, C48, C74) -/

set_option autoImplicit false

open Teqp.Calc Teqp.Model Teqp.Spec Teqp.Lemmas

namespace Teqp.Props

/-! ## Why the iterator stops -/

/-- One pass: what the conditions are shown at `x`, and where it leads. -/
def Pass (p : NRIter) (log : Bool) (x y dx r : Option (Fin 2 → ℝ)) : Prop :=
  stepData p log x = .ok (dx, r) ∧ y = addStep x dx

theorem firstStop_none {d : StopData} {cs : List StopCond} : firstStop d cs = none ↔ ∀ c ∈ cs, c.stop d = .keepGoing := by
  induction cs with
  | nil => simp [firstStop]
  | cons c cs ih =>
    rw [firstStop, List.forall_mem_cons, ← ih]
    by_cases h : c.stop d = .keepGoing <;> simp [h]

theorem firstStop_some {d : StopData} {cs : List StopCond} {reason : StopReason} {msg : String}
    (h : firstStop d cs = some (reason, msg)) :
    ∃ pre c post, cs = pre ++ c :: post ∧ (∀ c' ∈ pre, c'.stop d = .keepGoing) ∧ c.stop d = reason ∧
      reason ≠ .keepGoing ∧ msg = c.desc := by
  induction cs with
  | nil => simp [firstStop] at h
  | cons c cs ih =>
    rw [firstStop] at h
    by_cases hc : c.stop d = .keepGoing
    · rw [if_neg (by simpa using hc)] at h
      obtain ⟨pre, c', post, h1, h2, h3⟩ := ih h
      refine ⟨c :: pre, c', post, by rw [h1]; rfl, ?_, h3⟩
      rw [List.forall_mem_cons]
      exact ⟨hc, h2⟩
    · rw [if_pos hc] at h
      simp only [Option.some.injEq, Prod.mk.injEq] at h
      exact ⟨[], c, cs, rfl, by simp, h.1, by rw [← h.1]; exact hc, h.2.symm⟩

/-- Why a run of `k` passes out of `N` ended, given what the conditions were shown in the last pass. -/
inductive Ended (p : NRIter) (free : List (Fin 2)) (N : ℤ) (d : StopData) (k : ℕ) (msg0 : String) :
    StopReason → String → Prop where
  /-- both unknowns were prescribed -/
  | prescribed (h : free = []) (hk : k = 1) : Ended p free N d k msg0 .success "Only one step is needed for DT inputs"
  /-- a condition stopped the run, the first in order that did not say to keep going -/
  | condition {pre post : List StopCond} {c : StopCond} (h : p.conds = pre ++ c :: post)
      (hpre : ∀ c' ∈ pre, c'.stop d = .keepGoing) (hne : c.stop d ≠ .keepGoing) : Ended p free N d k msg0 (c.stop d) c.desc
  /-- the passes were used up -/
  | exhausted (hk : (k : ℤ) = N) (h : ∀ c ∈ p.conds, c.stop d = .keepGoing) : Ended p free N d k msg0 .fatal msg0

theorem stepLoop_run {p : NRIter} {free : List (Fin 2)} {log : Bool} {N : ℤ} (K : ℕ) (s s' : IterState)
    {reason : StopReason} (h : stepLoop p free log N (K + 1) s = .ok (s', reason)) :
    ∃ (k : ℕ) (x dx r : ℕ → Option (Fin 2 → ℝ)), k ≤ K ∧ x 0 = s.x ∧ x (k + 1) = s'.x ∧ s'.steps = s.steps + (k + 1) ∧
      (∀ j ≤ k, Pass p log (x j) (x (j + 1)) (dx j) (r j)) ∧
      (∀ j < k, ∀ c ∈ p.conds, c.stop ⟨N, x j, dx j, r j, free⟩ = .keepGoing) ∧
      ((free = [] ∧ k = 0 ∧ reason = .success ∧ s'.msg = msgTD) ∨
        (free ≠ [] ∧ firstStop ⟨N, x k, dx k, r k, free⟩ p.conds = some (reason, s'.msg)) ∨
        (k = K ∧ (∀ c ∈ p.conds, c.stop ⟨N, x k, dx k, r k, free⟩ = .keepGoing) ∧ reason = .fatal ∧ s'.msg = s.msg)) := by
  induction K generalizing s with
  | zero =>
    rw [stepLoop] at h
    obtain ⟨d, h1, h2⟩ := Outcome.bind_eq_ok.mp h
    obtain ⟨dx, r⟩ := d
    refine ⟨0, fun j => if j = 0 then s.x else addStep s.x dx, fun _ => dx, fun _ => r, le_rfl, rfl, ?_⟩
    by_cases hf : free = []
    · rw [if_pos hf] at h2
      injection h2 with h2
      simp only [Prod.mk.injEq] at h2
      obtain ⟨rfl, rfl⟩ := h2
      refine ⟨rfl, rfl, fun j hj => ?_, by simp, Or.inl ⟨hf, rfl, rfl, rfl⟩⟩
      obtain rfl : j = 0 := by omega
      exact ⟨h1, rfl⟩
    rw [if_neg hf] at h2
    cases hs : firstStop ⟨N, s.x, dx, r, free⟩ p.conds with
    | some rm =>
      obtain ⟨reason', msg⟩ := rm
      simp only [hs] at h2
      injection h2 with h2
      simp only [Prod.mk.injEq] at h2
      obtain ⟨rfl, rfl⟩ := h2
      refine ⟨rfl, rfl, fun j hj => ?_, by simp, Or.inr (Or.inl ⟨hf, hs⟩)⟩
      obtain rfl : j = 0 := by omega
      exact ⟨h1, rfl⟩
    | none =>
      simp only [hs, stepLoop] at h2
      injection h2 with h2
      simp only [Prod.mk.injEq] at h2
      obtain ⟨rfl, rfl⟩ := h2
      refine ⟨rfl, rfl, fun j hj => ?_, by simp, Or.inr (Or.inr ⟨rfl, firstStop_none.mp hs, rfl, rfl⟩)⟩
      obtain rfl : j = 0 := by omega
      exact ⟨h1, rfl⟩
  | succ K ih =>
    rw [stepLoop] at h
    obtain ⟨d, h1, h2⟩ := Outcome.bind_eq_ok.mp h
    obtain ⟨dx, r⟩ := d
    by_cases hf : free = []
    · rw [if_pos hf] at h2
      injection h2 with h2
      simp only [Prod.mk.injEq] at h2
      obtain ⟨rfl, rfl⟩ := h2
      refine ⟨0, fun j => if j = 0 then s.x else addStep s.x dx, fun _ => dx, fun _ => r, by omega, rfl, rfl, rfl,
        fun j hj => ?_, by simp, Or.inl ⟨hf, rfl, rfl, rfl⟩⟩
      obtain rfl : j = 0 := by omega
      exact ⟨h1, rfl⟩
    rw [if_neg hf] at h2
    cases hs : firstStop ⟨N, s.x, dx, r, free⟩ p.conds with
    | some rm =>
      obtain ⟨reason', msg⟩ := rm
      simp only [hs] at h2
      injection h2 with h2
      simp only [Prod.mk.injEq] at h2
      obtain ⟨rfl, rfl⟩ := h2
      refine ⟨0, fun j => if j = 0 then s.x else addStep s.x dx, fun _ => dx, fun _ => r, by omega, rfl, rfl, rfl,
        fun j hj => ?_, by simp, Or.inr (Or.inl ⟨hf, hs⟩)⟩
      obtain rfl : j = 0 := by omega
      exact ⟨h1, rfl⟩
    | none =>
      simp only [hs] at h2
      obtain ⟨k, x, dx', r', g1, g2, g3, g4, g5, g6, g7⟩ := ih _ h2
      refine ⟨k + 1, fun j => Nat.casesOn j s.x x, fun j => Nat.casesOn j dx dx', fun j => Nat.casesOn j r r', by omega, rfl,
        g3, ?_, fun j hj => ?_, fun j hj => ?_, ?_⟩
      · rw [g4]
        simp only
        omega
      · cases j with
        | zero => exact ⟨h1, g2⟩
        | succ j => exact g5 j (by omega)
      · cases j with
        | zero => exact firstStop_none.mp hs
        | succ j => exact g6 j (by omega)
      · rcases g7 with g | g | ⟨g, g'⟩
        · exact absurd g.1 hf
        · exact Or.inr (Or.inl g)
        · exact Or.inr (Or.inr ⟨by omega, g'⟩)

/-- **C47** What a call does: it makes at least one and at most the requested number of passes, each from where the last one
led; in no pass but the last did a condition ask to stop; and the reason and message returned are those of the last pass. -/
theorem takeSteps_run {p : NRIter} {log : Bool} {N : ℤ} {s s' : IterState} {reason : StopReason}
    (h : takeSteps p log N s = .ok (s', reason)) :
    ∃ (free : List (Fin 2)) (k : ℕ) (x dx r : ℕ → Option (Fin 2 → ℝ)), freeIndices p.vars = .ok free ∧
      1 ≤ k ∧ (k : ℤ) ≤ N ∧ x 0 = s.x ∧ x k = s'.x ∧ s'.steps = s.steps + k ∧
      (∀ j < k, Pass p log (x j) (x (j + 1)) (dx j) (r j)) ∧
      (∀ j, j + 1 < k → ∀ c ∈ p.conds, c.stop ⟨N, x j, dx j, r j, free⟩ = .keepGoing) ∧
      Ended p free N ⟨N, x (k - 1), dx (k - 1), r (k - 1), free⟩ k s.msg reason s'.msg := by
  obtain ⟨free, h1, h2⟩ := Outcome.bind_eq_ok.mp h
  by_cases hN : N ≤ 0
  · rw [if_pos hN] at h2; simp at h2
  rw [if_neg hN] at h2
  obtain ⟨K, hK⟩ : ∃ K, N.toNat = K + 1 := ⟨N.toNat - 1, by omega⟩
  rw [hK] at h2
  obtain ⟨k, x, dx, r, g1, g2, g3, g4, g5, g6, g7⟩ := stepLoop_run K s s' h2
  refine ⟨free, k + 1, x, dx, r, h1, by omega, by omega, g2, g3, g4, fun j hj => g5 j (by omega), fun j hj => g6 j (by omega), ?_⟩
  rw [Nat.add_sub_cancel]
  rcases g7 with ⟨a, b, rfl, d⟩ | ⟨a, b⟩ | ⟨a, b, rfl, d⟩
  · rw [d]
    exact .prescribed a (by omega)
  · obtain ⟨pre, c, post, e1, e2, e3, e4, e5⟩ := firstStop_some b
    rw [e5, ← e3]
    exact .condition e1 e2 (by rw [e3]; exact e4)
  · rw [d]
    exact .exhausted (by omega) b

/-- **C47** After `reset` the count is that of the steps made since, the first of them from the given temperature and
density, whatever the object had done before. -/
theorem reset_run {p : NRIter} {log : Bool} {N : ℤ} {s s' : IterState} {reason : StopReason} {T ρ : ℝ}
    (h : takeSteps p log N (resetIter s T ρ) = .ok (s', reason)) :
    ∃ (k : ℕ) (x dx r : ℕ → Option (Fin 2 → ℝ)), 1 ≤ k ∧ (k : ℤ) ≤ N ∧ x 0 = some ![T, ρ] ∧ x k = s'.x ∧ (s'.steps : ℤ) = k ∧
      ∀ j < k, Pass p log (x j) (x (j + 1)) (dx j) (r j) := by
  obtain ⟨free, k, x, dx, r, h1, h2, h3, h4, h5, h6, h7, h8, h9⟩ := takeSteps_run h
  refine ⟨k, x, dx, r, h2, h3, h4, h5, ?_, h7⟩
  rw [h6]
  simp [resetIter]

/-- **C47** A number of steps that is not positive is refused. -/
theorem takeSteps_refuses (p : NRIter) (log : Bool) {N : ℤ} (hN : N ≤ 0) (s : IterState) (hv : 2 ≤ p.vars.length) :
    takeSteps p log N s = .throws .invalidArgument := by
  unfold takeSteps
  match hp : p.vars with
  | [] => rw [hp] at hv; simp at hv
  | [a] => rw [hp] at hv; simp at hv
  | a :: b :: l => simp [freeIndices, hN]

/-- **C47** Success is reported only if both unknowns were prescribed or a condition reported success in the last pass. -/
theorem takeSteps_success {p : NRIter} {log : Bool} {N : ℤ} {s s' : IterState}
    (h : takeSteps p log N s = .ok (s', .success)) :
    freeIndices p.vars = .ok [] ∨
      ∃ (free : List (Fin 2)) (c : StopCond) (x dx r : Option (Fin 2 → ℝ)), freeIndices p.vars = .ok free ∧ c ∈ p.conds ∧
        Pass p log x s'.x dx r ∧ c.stop ⟨N, x, dx, r, free⟩ = .success ∧ s'.msg = c.desc := by
  obtain ⟨free, k, x, dx, r, h1, h2, h3, h4, h5, h6, h7, h8, h9⟩ := takeSteps_run h
  have hp := h7 (k - 1) (by omega)
  rw [Nat.sub_add_cancel h2, h5] at hp
  generalize hd : (⟨N, x (k - 1), dx (k - 1), r (k - 1), free⟩ : StopData) = d at h9
  generalize hr : StopReason.success = reason at h9
  generalize hm : s'.msg = msg at h9
  cases h9 with
  | prescribed a b => exact Or.inl (by rw [h1, a])
  | condition e1 e2 e3 =>
    right
    refine ⟨free, _, _, _, _, h1, ?_, hp, ?_, rfl⟩
    · rw [e1]; simp
    · rw [hd]
  | exhausted e => simp at hr

/-- **C47** The answer is never to keep going. -/
theorem takeSteps_answers {p : NRIter} {log : Bool} {N : ℤ} {s s' : IterState} {reason : StopReason}
    (h : takeSteps p log N s = .ok (s', reason)) : reason ≠ .keepGoing := by
  obtain ⟨free, k, x, dx, r, h1, h2, h3, h4, h5, h6, h7, h8, h9⟩ := takeSteps_run h
  generalize s'.msg = msg at h9
  cases h9 with
  | prescribed a b => simp
  | condition e1 e2 e3 => exact e3
  | exhausted e => simp

/-! ## What the conditions say -/

/-- **C47** The residual condition reports success exactly when both residuals are finite and below the threshold. -/
theorem maxAbs_success {d : StopData} {thr : ℝ} :
    (StopCond.maxAbs thr).stop d = .success ↔ ∃ r, d.r = some r ∧ |r 0| < thr ∧ |r 1| < thr := by
  cases hr : d.r with
  | none => simp [StopCond.stop, hr]
  | some r =>
    simp only [StopCond.stop, hr, max_lt_iff, Option.some.injEq, exists_eq_left']
    by_cases h : |r 0| < thr ∧ |r 1| < thr
    · rw [if_pos h]; simp [h]
    · rw [if_neg h]; simp [h]

theorem minRel_some {x dx : Fin 2 → ℝ} (is : List (Fin 2)) (acc : Option ℝ) {a : ℝ} (h : minRel x dx is acc = some a) :
    acc = some a ∨ ∃ i ∈ is, x i ≠ 0 ∧ (|dx i / x i| = a) := by
  induction is generalizing acc with
  | nil => exact Or.inl h
  | cons i is ih =>
    unfold minRel at h
    rcases ih _ h with h1 | ⟨j, hj, h2⟩
    · by_cases hx : x i = 0
      · rw [if_pos hx] at h1
        by_cases hd : dx i = 0
        · rw [if_pos hd] at h1; simp at h1
        · rw [if_neg hd] at h1; exact Or.inl h1
      · rw [if_neg hx] at h1
        cases acc with
        | none =>
          simp only [Option.some.injEq] at h1
          exact Or.inr ⟨i, List.mem_cons_self, hx, h1⟩
        | some b =>
          simp only [Option.some.injEq] at h1
          rcases min_choice |dx i / x i| b with e | e
          · rw [e] at h1; exact Or.inr ⟨i, List.mem_cons_self, hx, h1⟩
          · rw [e] at h1; exact Or.inl (by rw [h1])
    · exact Or.inr ⟨j, List.mem_cons_of_mem _ hj, h2⟩

/-- **C47** The step-size condition reports success only if the relative step of some unknown is below the threshold. -/
theorem minRelStep_success {d : StopData} {thr : ℝ} (ht : thr ≤ 10 ^ 99) (h : (StopCond.minRelStep thr).stop d = .success) :
    ∃ x dx, d.x = some x ∧ d.dx = some dx ∧ ∃ i ∈ d.free, x i ≠ 0 ∧ |dx i / x i| < thr := by
  unfold StopCond.stop at h
  cases hf : d.free with
  | nil =>
    simp only [hf] at h
    rw [if_neg (by linarith)] at h
    simp at h
  | cons i is =>
    simp only [hf] at h
    cases hx : d.x with
    | none => simp [hx] at h
    | some x =>
      cases hdx : d.dx with
      | none => simp [hx, hdx] at h
      | some dx =>
        simp only [hx, hdx] at h
        cases hm : minRel x dx (i :: is) (some (10 ^ 99)) with
        | none => simp [hm] at h
        | some a =>
          simp only [hm] at h
          by_cases ha : a < thr
          · refine ⟨x, dx, rfl, rfl, ?_⟩
            rcases minRel_some _ _ hm with e | ⟨j, hj, h1, h2⟩
            · simp only [Option.some.injEq] at e; linarith
            · exact ⟨j, hj, h1, by rw [h2]; exact ha⟩
          · rw [if_neg ha] at h; simp at h

/-- **C47** One converged unknown is enough for the step-size condition: here the density does not move and the temperature
changes sixfold, and success is reported for every positive threshold up to five. -/
theorem minRelStep_one_enough {thr : ℝ} (h0 : 0 < thr) :
    (StopCond.minRelStep thr).stop ⟨10, some ![1, 1], some ![5, 0], some ![7, 7], [0, 1]⟩ = .success := by
  simp [StopCond.stop, minRel, h0]

/-- **C47** The sign condition is fatal exactly when a free unknown is negative before the step. -/
theorem negativeX_fatal {d : StopData} :
    StopCond.negativeX.stop d = .fatal ↔ ∃ x, d.x = some x ∧ ∃ i ∈ d.free, x i < 0 := by
  cases hx : d.x with
  | none => simp [StopCond.stop, hx]
  | some x =>
    simp only [StopCond.stop, hx, Option.some.injEq, exists_eq_left']
    by_cases h : ∃ i ∈ d.free, x i < 0
    · rw [if_pos h]; simpa using h
    · rw [if_neg h]; simpa using h

/-- **C47** The condition on non-finite numbers is fatal exactly when the unknowns or the step are not finite. -/
theorem nanXDX_fatal {d : StopData} : StopCond.nanXDX.stop d = .fatal ↔ d.free ≠ [] ∧ (d.x = none ∨ d.dx = none) := by
  unfold StopCond.stop
  by_cases h : d.free ≠ [] ∧ (d.x = none ∨ d.dx = none)
  · simp only [if_pos h]; simpa using h
  · simp only [if_neg h]; simpa using h

/-- **C47** The step-count condition depends on the number of steps requested only, not on the number taken. -/
theorem stepCount_fatal {d : StopData} {M : ℤ} : (StopCond.stepCount M).stop d = .fatal ↔ 0 ≤ M ∧ M ≤ d.N := by
  unfold StopCond.stop
  by_cases h : 0 ≤ M ∧ M ≤ d.N
  · simp only [if_pos h]; simpa using h
  · simp only [if_neg h]; simpa using h

theorem stepCount_keep {d : StopData} {M : ℤ} (h : ¬(0 ≤ M ∧ M ≤ d.N)) : (StopCond.stepCount M).stop d = .keepGoing := by
  unfold StopCond.stop
  simp only [if_neg h]

/-- **C47** is false of the code: a step-count condition with limit `M` does not count steps.  Asked for at least `M` steps, the
iterator stops as failed after the first; asked for fewer, it never stops on that account, however many have been taken. -/
theorem stepCount_ignores_steps {p : NRIter} {log : Bool} {N M : ℤ} {s s' : IterState} {reason : StopReason} (hM : 0 ≤ M)
    (hc : p.conds = [.stepCount M]) (hf : freeIndices p.vars ≠ .ok []) (h : takeSteps p log N s = .ok (s', reason)) :
    (M ≤ N → s'.steps = s.steps + 1 ∧ reason = .fatal ∧ s'.msg = "StepCountErrorCondition") ∧
    (N < M → s'.steps = s.steps + N.toNat ∧ reason = .fatal ∧ s'.msg = s.msg) := by
  obtain ⟨free, k, x, dx, r, h1, h2, h3, h4, h5, h6, h7, h8, h9⟩ := takeSteps_run h
  constructor
  · intro hMN
    have hk : k = 1 := by
      by_contra hk
      have := h8 0 (by omega) (.stepCount M) (by rw [hc]; simp)
      rw [stepCount_fatal.mpr ⟨hM, hMN⟩] at this
      simp at this
    subst hk
    refine ⟨h6, ?_⟩
    have hs := stepCount_fatal (d := ⟨N, x (1 - 1), dx (1 - 1), r (1 - 1), free⟩).mpr ⟨hM, hMN⟩
    generalize hd : (⟨N, x (1 - 1), dx (1 - 1), r (1 - 1), free⟩ : StopData) = d at h9 hs
    generalize hm : s'.msg = msg at h9
    cases h9 with
    | prescribed a b => exact absurd (by rw [h1, a]) hf
    | @condition pre post c e1 e2 e3 =>
      rw [hc] at e1
      have : c = .stepCount M := by
        cases pre with
        | nil => simp at e1; exact e1.1.symm
        | cons a l => simp at e1
      subst this
      exact ⟨hs, rfl⟩
    | exhausted e1 e2 =>
      have := e2 (.stepCount M) (by rw [hc]; simp)
      rw [hs] at this
      simp at this
  · intro hMN
    have hs : ∀ d : StopData, d.N = N → (StopCond.stepCount M).stop d = .keepGoing := fun d hd =>
      stepCount_keep (by rw [hd]; omega)
    have hs' := hs ⟨N, x (k - 1), dx (k - 1), r (k - 1), free⟩ rfl
    generalize hd : (⟨N, x (k - 1), dx (k - 1), r (k - 1), free⟩ : StopData) = d at h9 hs'
    generalize hm : s'.msg = msg at h9
    cases h9 with
    | prescribed a b => exact absurd (by rw [h1, a]) hf
    | @condition pre post c e1 e2 e3 =>
      rw [hc] at e1
      have : c = .stepCount M := by
        cases pre with
        | nil => simp at e1; exact e1.1.symm
        | cons a l => simp at e1
      subst this
      exact absurd hs' e3
    | exhausted e1 e2 => exact ⟨by omega, rfl, rfl⟩

/-! ## The Newton step -/

/-- **C47** The unknowns that are iterated on are those not prescribed, in whatever order the variables are given. -/
theorem freeIndices_spec {a b : Char} {l : List Char} {free : List (Fin 2)} (h : freeIndices (a :: b :: l) = .ok free) :
    (0 ∈ free ↔ a ≠ 'T' ∧ b ≠ 'T') ∧ (1 ∈ free ↔ a ≠ 'D' ∧ b ≠ 'D') ∧ free.Pairwise (· < ·) := by
  simp only [freeIndices, Outcome.ok.injEq] at h
  subst h
  by_cases h1 : a = 'T' ∨ b = 'T' <;> by_cases h2 : a = 'D' ∨ b = 'D' <;>
    simp only [h1, h2, if_true, if_false, List.nil_append, List.append_nil, List.cons_append] <;>
    simp <;> tauto

example : freeIndices ['P', 'D'] = .ok [0] := by decide

/-- **C47** Each residual is relative exactly when its own flag asks for it. -/
theorem relScale_spec (p : NRIter) :
    relScale p 0 = (if p.rel.1 = true then p.vals 0 else 1) ∧ relScale p 1 = (if p.rel.2 = true then p.vals 1 else 1) := by
  constructor <;> simp [relScale]

example : relScale ⟨['T', 'P'], ![300, 1000], (false, true), [], fun _ _ _ _ => 0, 8, fun _ _ => none⟩ 1 = 1000 := by
  rw [(relScale_spec _).2]
  simp

/-- The linear solver solves regular systems. -/
def SolvesPair (p : NRIter) : Prop :=
  ∀ (J : Matrix (Fin 2) (Fin 2) ℝ) (b : Fin 2 → ℝ), J.det ≠ 0 → ∃ y, p.solve J b = some y ∧ ∀ i, J i 0 * y 0 + J i 1 * y 1 = b i

/-- The derivative matrices are those of the reduced Helmholtz energy `α`, smooth at the point. -/
structure DerivsOf (p : NRIter) (α : ℝ → ℝ → ℝ) (T ρ : ℝ) : Prop where
  A_eq : p.A T ρ = fun i j => Lambda α i j T ρ
  T_ne : T ≠ 0
  rho_ne : ρ ≠ 0
  smooth : ContDiffAt ℝ 2 (unc α) (T, ρ)

/-- **C47**, **C48** The residual that is iterated on is the difference between the state functions asked for and their targets,
divided by the target where a relative error is asked for; its matrix holds the derivatives in temperature and in density, or
in the logarithm of the density. -/
theorem calcSystem_exact {p : NRIter} {a b : Char} (hv : p.vars = [a, b]) {α : ℝ → ℝ → ℝ} {x : Fin 2 → ℝ}
    (hd : DerivsOf p α (x 0) (x 1)) {fa fb : ℝ → ℝ → ℝ} (ha : stateFunction a α p.R = some fa)
    (hb : stateFunction b α p.R = some fb) (hs : ∀ i, relScale p i ≠ 0) (hx : 0 < x 1) (log : Bool) :
    ∃ r J, calcSystem p log (some x) = .ok (some (r, J)) ∧
      (∀ i, r i = (![fa, fb] i (x 0) (x 1) - p.vals i) / relScale p i) ∧
      (∀ i, HasDerivAt (fun T => (![fa, fb] i T (x 1) - p.vals i) / relScale p i) (J i 0) (x 0)) ∧
      (log = false → ∀ i, HasDerivAt (fun ρ => (![fa, fb] i (x 0) ρ - p.vals i) / relScale p i) (J i 1) (x 1)) ∧
      (log = true → ∀ i, HasDerivAt (fun y => (![fa, fb] i (x 0) (Real.exp y) - p.vals i) / relScale p i) (J i 1)
        (Real.log (x 1))) := by
  have e1 := jvRow_exact a α p.R (x 0) (x 1) hd.T_ne hd.rho_ne hd.smooth
  have e2 := jvRow_exact b α p.R (x 0) (x 1) hd.T_ne hd.rho_ne hd.smooth
  rw [ha] at e1
  rw [hb] at e2
  obtain ⟨ra, a1, a2, a3, a4⟩ := e1
  obtain ⟨rb, b1, b2, b3, b4⟩ := e2
  have hm : calcMatrices p (some x) = .ok (some (![ra.v, rb.v], !![ra.dT, ra.drho; rb.dT, rb.drho])) := by
    simp only [calcMatrices]
    rw [hv, hd.A_eq, buildIterationJv_pair, a1, Outcome.bind_ok, b1]
    simp [hd.T_ne, hd.rho_ne]
  have hs' : ¬∃ i, relScale p i = 0 := by push Not; exact hs
  have hc : calcSystem p log (some x) = .ok (some (fun i => ((![ra.v, rb.v] : Fin 2 → ℝ) i - p.vals i) / relScale p i,
      Matrix.of fun i j => (if log ∧ j = 1 then (!![ra.dT, ra.drho; rb.dT, rb.drho] : Matrix (Fin 2) (Fin 2) ℝ) i j * x 1
        else (!![ra.dT, ra.drho; rb.dT, rb.drho] : Matrix (Fin 2) (Fin 2) ℝ) i j) / relScale p i)) := by
    unfold calcSystem
    rw [hm, Outcome.bind_ok]
    simp only
    rw [if_neg hs']
  refine ⟨_, _, hc, ?_, ?_, ?_, ?_⟩
  · intro i
    fin_cases i
    · simp [a2]
    · simp [b2]
  · intro i
    fin_cases i
    · have := (a3.sub_const (p.vals 0)).div_const (relScale p 0)
      simpa using this
    · have := (b3.sub_const (p.vals 1)).div_const (relScale p 1)
      simpa using this
  · rintro rfl i
    fin_cases i
    · have := (a4.sub_const (p.vals 0)).div_const (relScale p 0)
      simpa using this
    · have := (b4.sub_const (p.vals 1)).div_const (relScale p 1)
      simpa using this
  · rintro rfl i
    have he := Real.hasDerivAt_exp (Real.log (x 1))
    rw [Real.exp_log hx] at he
    rw [← Real.exp_log hx] at a4 b4
    fin_cases i
    · have := ((a4.comp (Real.log (x 1)) (by simpa [Real.exp_log hx] using he)).sub_const (p.vals 0)).div_const (relScale p 0)
      simpa using this
    · have := ((b4.comp (Real.log (x 1)) (by simpa [Real.exp_log hx] using he)).sub_const (p.vals 1)).div_const (relScale p 1)
      simpa using this

/-- **C47** If the residual condition is the one that reports success, then in the state before the last step both state functions
met their targets within the threshold. -/
theorem maxAbs_success_meaning {p : NRIter} {a b : Char} (hv : p.vars = [a, b]) {α : ℝ → ℝ → ℝ} {x : Fin 2 → ℝ}
    (hd : DerivsOf p α (x 0) (x 1)) {fa fb : ℝ → ℝ → ℝ} (ha : stateFunction a α p.R = some fa)
    (hb : stateFunction b α p.R = some fb) (hs : ∀ i, relScale p i ≠ 0) (hx : 0 < x 1) {log : Bool} {N : ℤ} {thr : ℝ}
    {y dx r : Option (Fin 2 → ℝ)} {free : List (Fin 2)} (hp : Pass p log (some x) y dx r)
    (hc : (StopCond.maxAbs thr).stop ⟨N, some x, dx, r, free⟩ = .success) :
    |(fa (x 0) (x 1) - p.vals 0) / relScale p 0| < thr ∧ |(fb (x 0) (x 1) - p.vals 1) / relScale p 1| < thr := by
  obtain ⟨r', J, h1, h2, -⟩ := calcSystem_exact hv hd ha hb hs hx log
  obtain ⟨r'', h3, h4, h5⟩ := maxAbs_success.mp hc
  have h6 := hp.1
  unfold stepData at h6
  rw [h1, Outcome.bind_ok] at h6
  simp only [Outcome.ok.injEq, Prod.mk.injEq] at h6
  have h7 : r' = r'' := by
    have := h6.2.trans h3
    injection this
  subst h7
  rw [h2 0] at h4
  rw [h2 1] at h5
  exact ⟨h4, h5⟩

/-- **C47** `calc_maxabsr` is the largest residual of the step. -/
theorem calcMaxabsr_eq {p : NRIter} {a b : Char} (hv : p.vars = [a, b]) {α : ℝ → ℝ → ℝ} {x : Fin 2 → ℝ}
    (hd : DerivsOf p α (x 0) (x 1)) {fa fb : ℝ → ℝ → ℝ} (ha : stateFunction a α p.R = some fa)
    (hb : stateFunction b α p.R = some fb) (hs : ∀ i, relScale p i ≠ 0) :
    calcMaxabsr p (x 0) (x 1) = .ok (max |(fa (x 0) (x 1) - p.vals 0) / relScale p 0|
      |(fb (x 0) (x 1) - p.vals 1) / relScale p 1|) := by
  have key : ∀ (c : Char) (f : ℝ → ℝ → ℝ), stateFunction c α p.R = some f →
      valRow c (p.A (x 0) (x 1)) p.R (x 0) (x 1) = .ok (f (x 0) (x 1)) := by
    intro c f hf
    have e := jvRow_exact c α p.R (x 0) (x 1) hd.T_ne hd.rho_ne hd.smooth
    rw [hf] at e
    obtain ⟨row, h1, h2, -⟩ := e
    rw [hd.A_eq, ← h2]
    unfold stateFunction at hf
    by_cases c1 : c = 'T'
    · subst c1; simp only [jvRow, Outcome.ok.injEq] at h1; subst h1; rfl
    by_cases c2 : c = 'D'
    · subst c2; simp only [jvRow, Outcome.ok.injEq] at h1; subst h1; rfl
    by_cases c3 : c = 'P'
    · subst c3; simp only [jvRow, Outcome.ok.injEq] at h1; subst h1; rfl
    by_cases c4 : c = 'S'
    · subst c4; simp only [jvRow, Outcome.ok.injEq] at h1; subst h1; rfl
    by_cases c5 : c = 'H'
    · subst c5; simp only [jvRow, Outcome.ok.injEq] at h1; subst h1; rfl
    by_cases c6 : c = 'U'
    · subst c6; simp only [jvRow, Outcome.ok.injEq] at h1; subst h1; rfl
    simp [c1, c2, c3, c4, c5, c6] at hf
  unfold calcMaxabsr
  rw [hv]
  simp only
  rw [key a fa ha, Outcome.bind_ok, key b fb hb, Outcome.bind_ok, if_neg]
  simp [hd.T_ne, hd.rho_ne, hs]

/-- **C47** A target of zero cannot be met relatively: the largest residual is then not finite, and the step is not either. -/
theorem relative_zero_target {p : NRIter} {a b : Char} (hv : p.vars = [a, b]) {va vb : ℝ} (T ρ : ℝ)
    (ha : valRow a (p.A T ρ) p.R T ρ = .ok va) (hb : valRow b (p.A T ρ) p.R T ρ = .ok vb)
    (h : (p.rel.1 = true ∧ p.vals 0 = 0) ∨ (p.rel.2 = true ∧ p.vals 1 = 0)) :
    calcMaxabsr p T ρ = .nonFinite ∧ ∀ log x sys, calcSystem p log x = .ok sys → sys = none := by
  have h0 : relScale p 0 = 0 ∨ relScale p 1 = 0 := by
    rcases h with ⟨h1, h2⟩ | ⟨h1, h2⟩
    · left; simp [relScale, h1, h2]
    · right; simp [relScale, h1, h2]
  constructor
  · unfold calcMaxabsr
    rw [hv]
    simp only
    rw [ha, Outcome.bind_ok, hb, Outcome.bind_ok, if_pos (Or.inr h0)]
  · intro log x sys hsys
    obtain ⟨im, -, h2⟩ := Outcome.bind_eq_ok.mp hsys
    have h3 : ∃ i, relScale p i = 0 := h0.elim (fun h => ⟨0, h⟩) (fun h => ⟨1, h⟩)
    match im, x with
    | some (v, J), some x =>
      simp only [if_pos h3] at h2
      exact (Outcome.ok.inj h2).symm
    | none, some x => exact (Outcome.ok.inj h2).symm
    | none, none => exact (Outcome.ok.inj h2).symm
    | some (v, J), none => exact (Outcome.ok.inj h2).symm

/-- Pressure and temperature with a relative residual for a pressure of zero. -/
example : calcMaxabsr ⟨['T', 'P'], ![300, 0], (false, true), [], fun _ _ _ _ => 1, 8, fun _ _ => none⟩ 300 1 = .nonFinite :=
  (relative_zero_target (va := 300) (vb := 1 * 1 * (8 / (1 / 300) * (1 / 1))) rfl 300 1 rfl rfl (Or.inr ⟨rfl, by simp⟩)).1

/-! ## Both unknowns prescribed -/

theorem freeIndices_TD : freeIndices ['T', 'D'] = .ok [] := by decide

theorem td_system {p : NRIter} (hv : p.vars = ['T', 'D']) (hs : ∀ i, relScale p i ≠ 0) (x : Fin 2 → ℝ) (log : Bool) :
    calcSystem p log (some x) = .ok (some (fun i => (x i - p.vals i) / relScale p i,
      Matrix.of fun i j => (if log ∧ j = 1 then (!![1, 0; 0, 1] : Matrix (Fin 2) (Fin 2) ℝ) i j * x 1
        else (!![1, 0; 0, 1] : Matrix (Fin 2) (Fin 2) ℝ) i j) / relScale p i)) := by
  have hm : calcMatrices p (some x) = .ok (some (![x 0, x 1], !![1, 0; 0, 1])) := by
    simp only [calcMatrices]
    rw [hv, buildIterationJv_pair]
    simp [jvRow, rowDivides]
  have hs' : ¬∃ i, relScale p i = 0 := by push Not; exact hs
  have e : (![x 0, x 1] : Fin 2 → ℝ) = x := by funext i; fin_cases i <;> rfl
  unfold calcSystem
  rw [hm, Outcome.bind_ok, e]
  simp only
  rw [if_neg hs']

/-- **C47** With temperature and density prescribed, one step of `take_steps` leads exactly to them. -/
theorem takeSteps_TD {p : NRIter} (hv : p.vars = ['T', 'D']) (hsol : SolvesPair p) (hs : ∀ i, relScale p i ≠ 0) {N : ℤ}
    (hN : 0 < N) (x : Fin 2 → ℝ) (n : ℕ) (msg : String) :
    takeSteps p false N ⟨some x, n, msg⟩ = .ok (⟨some p.vals, n + 1, msgTD⟩, .success) := by
  have h1 := td_system hv hs x false
  obtain ⟨K, hK⟩ : ∃ K, N.toNat = K + 1 := ⟨N.toNat - 1, by omega⟩
  set J : Matrix (Fin 2) (Fin 2) ℝ := Matrix.of fun i j => (!![1, 0; 0, 1] : Matrix (Fin 2) (Fin 2) ℝ) i j / relScale p i with hJ
  have hdet : J.det ≠ 0 := by
    rw [Matrix.det_fin_two]
    simp [hJ, hs 0, hs 1]
  obtain ⟨y, hy1, hy2⟩ := hsol J (fun i => -((x i - p.vals i) / relScale p i)) hdet
  have y0 : x 0 + y 0 = p.vals 0 := by
    have := hy2 0
    have h0 := hs 0
    simp [hJ] at this
    field_simp at this
    linarith
  have y1 : x 1 + y 1 = p.vals 1 := by
    have := hy2 1
    have h0 := hs 1
    simp [hJ] at this
    field_simp at this
    linarith
  have hd : stepData p false (some x) = .ok (some y, some fun i => (x i - p.vals i) / relScale p i) := by
    unfold stepData
    rw [h1, Outcome.bind_ok]
    simp only [Bool.false_eq_true, false_and, if_false]
    unfold calcStep
    rw [← hJ, hy1]
    simp
  have e : (fun i => x i + y i) = p.vals := by funext i; fin_cases i <;> [exact y0; exact y1]
  unfold takeSteps
  rw [hv, freeIndices_TD, Outcome.bind_ok, if_neg (by omega), hK, stepLoop, hd, Outcome.bind_ok, if_pos rfl]
  simp only [addStep, e]

/-- **C47** is false of the code: with temperature and density prescribed, `take_steps_logrho` takes one step, reports success
without looking at the result, and misses the density unless it was right before. -/
theorem takeSteps_TD_log {p : NRIter} (hv : p.vars = ['T', 'D']) (hsol : SolvesPair p) (hs : ∀ i, relScale p i ≠ 0) {N : ℤ}
    (hN : 0 < N) {x : Fin 2 → ℝ} (hx : 0 < x 1) (n : ℕ) (msg : String) :
    ∃ y : Fin 2 → ℝ, takeSteps p true N ⟨some x, n, msg⟩ = .ok (⟨some y, n + 1, msgTD⟩, .success) ∧ y 0 = p.vals 0 ∧
      y 1 = x 1 * Real.exp (p.vals 1 / x 1 - 1) ∧ (y 1 = p.vals 1 ↔ x 1 = p.vals 1) := by
  have h1 := td_system hv hs x true
  obtain ⟨K, hK⟩ : ∃ K, N.toNat = K + 1 := ⟨N.toNat - 1, by omega⟩
  set J : Matrix (Fin 2) (Fin 2) ℝ := Matrix.of fun i j => (if true = true ∧ j = 1 then (!![1, 0; 0, 1] : Matrix (Fin 2) (Fin 2) ℝ) i j * x 1
        else (!![1, 0; 0, 1] : Matrix (Fin 2) (Fin 2) ℝ) i j) / relScale p i with hJ
  have hdet : J.det ≠ 0 := by
    rw [Matrix.det_fin_two]
    simp [hJ, hs 0, hs 1, hx.ne']
  obtain ⟨y, hy1, hy2⟩ := hsol J (fun i => -((x i - p.vals i) / relScale p i)) hdet
  have y0 : x 0 + y 0 = p.vals 0 := by
    have := hy2 0
    have h0 := hs 0
    simp [hJ] at this
    field_simp at this
    linarith
  have y1 : y 1 = p.vals 1 / x 1 - 1 := by
    have := hy2 1
    have h0 := hs 1
    simp [hJ] at this
    field_simp at this
    field_simp
    linarith
  have hd : stepData p true (some x) = .ok (some ![y 0, x 1 * (Real.exp (y 1) - 1)],
      some fun i => (x i - p.vals i) / relScale p i) := by
    unfold stepData
    rw [h1, Outcome.bind_ok]
    simp only
    unfold calcStep
    simp only
    rw [hy1]
    simp
  refine ⟨![p.vals 0, x 1 * Real.exp (p.vals 1 / x 1 - 1)], ?_, rfl, rfl, ?_⟩
  · have e : (fun i => x i + (![y 0, x 1 * (Real.exp (y 1) - 1)] : Fin 2 → ℝ) i) =
        ![p.vals 0, x 1 * Real.exp (p.vals 1 / x 1 - 1)] := by
      funext i
      fin_cases i
      · simpa using y0
      · simp [y1]; ring
    unfold takeSteps
    rw [hv, freeIndices_TD, Outcome.bind_ok, if_neg (by omega), hK, stepLoop, hd, Outcome.bind_ok, if_pos rfl]
    simp only [addStep, e]
  · simp only [Matrix.cons_val_one, Matrix.cons_val_fin_one]
    constructor
    · intro h
      by_contra hne
      have ht : p.vals 1 / x 1 - 1 ≠ 0 := by
        intro h0
        have : p.vals 1 / x 1 = 1 := by linarith
        rw [div_eq_one_iff_eq hx.ne'] at this
        exact hne this.symm
      have h2 := Real.add_one_lt_exp ht
      have h3 : Real.exp (p.vals 1 / x 1 - 1) = p.vals 1 / x 1 := by
        rw [eq_div_iff hx.ne']
        linarith
      linarith
    · intro h
      rw [← h, div_self hx.ne']
      simp

/-! ## Positive densities -/

theorem Pass.log_rho {p : NRIter} {x y : Fin 2 → ℝ} {dx r : Option (Fin 2 → ℝ)} (h : Pass p true (some x) (some y) dx r) :
    ∃ (r' : Fin 2 → ℝ) (J : Matrix (Fin 2) (Fin 2) ℝ) (s : Fin 2 → ℝ), calcSystem p true (some x) = .ok (some (r', J)) ∧
      p.solve J (fun i => -r' i) = some s ∧ y 0 = x 0 + s 0 ∧ y 1 = x 1 * Real.exp (s 1) := by
  obtain ⟨h1, h2⟩ := h
  unfold stepData at h1
  obtain ⟨sys, h3, h4⟩ := Outcome.bind_eq_ok.mp h1
  cases sys with
  | none =>
    simp only [Outcome.ok.injEq, Prod.mk.injEq] at h4
    rw [← h4.1] at h2
    simp [addStep] at h2
  | some rJ =>
    obtain ⟨r', J⟩ := rJ
    simp only [Outcome.ok.injEq, Prod.mk.injEq] at h4
    cases hsol : p.solve J (fun i => -r' i) with
    | none =>
      have : dx = none := by rw [← h4.1]; simp [calcStep, hsol]
      rw [this] at h2
      simp [addStep] at h2
    | some s =>
      have : dx = some ![s 0, x 1 * (Real.exp (s 1) - 1)] := by rw [← h4.1]; simp [calcStep, hsol]
      rw [this] at h2
      simp only [addStep, Option.some.injEq] at h2
      refine ⟨r', J, s, h3, hsol, ?_, ?_⟩
      · rw [h2]; simp
      · rw [h2]; simp; ring

/-- **C48** A step in the logarithm of the density keeps a positive density positive, and changes its logarithm by exactly the
step computed. -/
theorem log_step {p : NRIter} {x y : Fin 2 → ℝ} {dx r : Option (Fin 2 → ℝ)} (h : Pass p true (some x) (some y) dx r)
    (hx : 0 < x 1) : 0 < y 1 ∧ ∃ (r' : Fin 2 → ℝ) (J : Matrix (Fin 2) (Fin 2) ℝ) (s : Fin 2 → ℝ),
      calcSystem p true (some x) = .ok (some (r', J)) ∧ p.solve J (fun i => -r' i) = some s ∧
      Real.log (y 1) - Real.log (x 1) = s 1 ∧ y 0 - x 0 = s 0 := by
  obtain ⟨r', J, s, h1, h2, h3, h4⟩ := h.log_rho
  refine ⟨by rw [h4]; exact mul_pos hx (Real.exp_pos _), r', J, s, h1, h2, ?_, by rw [h3]; ring⟩
  rw [h4, Real.log_mul hx.ne' (Real.exp_pos _).ne', Real.log_exp]
  ring

/-- **C48** From a positive density, a call of `take_steps_logrho` visits positive densities only, for any number of steps: the
density returned, if finite, is positive. -/
theorem takeSteps_log_pos {p : NRIter} {N : ℤ} {s s' : IterState} {reason : StopReason}
    (h : takeSteps p true N s = .ok (s', reason)) {x y : Fin 2 → ℝ} (hsx : s.x = some x) (hx : 0 < x 1)
    (hsy : s'.x = some y) : 0 < y 1 := by
  obtain ⟨free, k, X, dx, r, h1, h2, h3, h4, h5, h6, h7, -, -⟩ := takeSteps_run h
  have key : ∀ j ≤ k, ∀ z, X j = some z → 0 < z 1 := by
    intro j
    induction j with
    | zero =>
      intro _ z hz
      rw [h4, hsx] at hz
      injection hz with hz
      rw [← hz]; exact hx
    | succ j ih =>
      intro hj z hz
      have hp := h7 j (by omega)
      cases hX : X j with
      | none =>
        have := hp.2
        rw [hX, hz] at this
        simp [addStep] at this
      | some w =>
        rw [hX, hz] at hp
        exact (log_step hp (ih (by omega) w hX)).1
  exact key k le_rfl y (by rw [h5, hsy])

/-! ## Following a straight path in the properties -/

theorem pathRate_of_ne {num p q r s : ℝ} (hs : s ≠ 0) (h : p - q * r / s ≠ 0) :
    pathRate num p q r s = some (num / (p - q * r / s)) := by
  unfold pathRate
  rw [if_neg hs, if_neg h]

theorem pathRate_of_det {num p q r s D : ℝ} (hD : D = p * s - q * r) (h : D ≠ 0) : pathRate num p q r s = some (num * s / D) := by
  unfold pathRate
  by_cases hs : s = 0
  · subst hs
    rw [if_pos rfl, if_neg]
    · simp
    · intro h0
      apply h
      rw [hD, h0]
      simp
  · have e : p - q * r / s = D / s := by rw [hD]; field_simp
    rw [if_neg hs, e, if_neg (div_ne_zero h hs)]
    rw [div_div_eq_mul_div]

theorem pathRate_of_det_zero {num p q r s : ℝ} (h : p * s - q * r = 0) : pathRate num p q r s = none := by
  unfold pathRate
  by_cases hs : s = 0
  · subst hs
    rw [if_pos rfl, if_pos]
    simpa using h
  · rw [if_neg hs, if_pos]
    field_simp
    linarith

/-- **C74** The rates used by the path integration move the two properties at the prescribed rates for every regular Jacobian, also
when entries vanish, as they do when temperature or density is one of the properties. -/
theorem pathRates_exact {J : Matrix (Fin 2) (Fin 2) ℝ} (hdet : J.det ≠ 0) (dx dy : ℝ) :
    ∃ r, pathRates J dx dy = some r ∧ J 0 0 * r.1 + J 0 1 * r.2 = dx ∧ J 1 0 * r.1 + J 1 1 * r.2 = dy := by
  rw [Matrix.det_fin_two] at hdet
  generalize hD : J 0 0 * J 1 1 - J 0 1 * J 1 0 = D at hdet
  have hn : -D ≠ 0 := neg_ne_zero.mpr hdet
  unfold pathRates
  rw [pathRate_of_det (D := D) (by rw [← hD]) hdet, pathRate_of_det (D := -D) (by rw [← hD]; ring) hn,
    pathRate_of_det (D := -D) (by rw [← hD]; ring) hn, pathRate_of_det (D := D) (by rw [← hD]; ring) hdet]
  refine ⟨_, rfl, ?_, ?_⟩
  · field_simp
    rw [← hD]; ring
  · field_simp
    rw [← hD]; ring

/-- **C74** A singular Jacobian gives no finite rates. -/
theorem pathRates_singular {J : Matrix (Fin 2) (Fin 2) ℝ} (hdet : J.det = 0) (dx dy : ℝ) : pathRates J dx dy = none := by
  rw [Matrix.det_fin_two] at hdet
  unfold pathRates
  rw [pathRate_of_det_zero hdet]

theorem pathLoop_steps {cm : ℝ × ℝ → Outcome (Option PathMat)} {dx dy dt : ℝ} (k : ℕ) (s0 : ℝ × ℝ) (im0 : PathMat)
    {s' : ℝ × ℝ} {v' : Fin 2 → ℝ} (h0 : cm s0 = .ok (some im0)) (h : pathLoop cm dx dy dt k s0 im0 = .ok (s', v')) :
    ∃ (s : ℕ → ℝ × ℝ) (im : ℕ → PathMat), s 0 = s0 ∧ im 0 = im0 ∧ s k = s' ∧ (im k).1 = v' ∧
      (∀ j ≤ k, cm (s j) = .ok (some (im j))) ∧ ∀ j < k, ∀ i,
        (im j).2 i 0 * ((s (j + 1)).1 - (s j).1) + (im j).2 i 1 * ((s (j + 1)).2 - (s j).2) = ![dx, dy] i * dt := by
  induction k generalizing s0 im0 with
  | zero =>
    simp only [pathLoop, Outcome.ok.injEq, Prod.mk.injEq] at h
    refine ⟨fun _ => s0, fun _ => im0, rfl, rfl, h.1, h.2, fun _ _ => h0, fun j hj => by omega⟩
  | succ k ih =>
    rw [pathLoop] at h
    by_cases hdet : im0.2.det = 0
    · rw [pathRates_singular hdet] at h
      simp at h
    obtain ⟨r, hr, h1, h2⟩ := pathRates_exact hdet dx dy
    rw [hr] at h
    simp only at h
    obtain ⟨im', g1, g2⟩ := Outcome.bind_eq_ok.mp h
    cases im' with
    | none => simp at g2
    | some im' =>
      simp only at g2
      obtain ⟨s, im, e1, e2, e3, e4, e5, e6⟩ := ih _ _ g1 g2
      refine ⟨fun j => Nat.casesOn j s0 s, fun j => Nat.casesOn j im0 im, rfl, rfl, e3, e4, ?_, ?_⟩
      · intro j hj
        cases j with
        | zero => exact h0
        | succ j => exact e5 j (by omega)
      · intro j hj i
        cases j with
        | zero =>
          show im0.2 i 0 * ((s 0).1 - s0.1) + im0.2 i 1 * ((s 0).2 - s0.2) = _
          simp only [e1, add_sub_cancel_left]
          have hi : i = 0 ∨ i = 1 := by omega
          rcases hi with rfl | rfl
          · rw [← mul_assoc, ← mul_assoc, ← add_mul, h1]; simp
          · rw [← mul_assoc, ← mul_assoc, ← add_mul, h2]; simp
        | succ j => exact e6 j (by omega) i

/-- **C74** The path integration makes `N` steps, and in each of them the linearised properties change by one `N`-th of the
difference between the targets and the values at the start; the properties returned are those of the state returned. -/
theorem pathIntegrate_steps {cm : ℝ × ℝ → Outcome (Option PathMat)} {vals : Fin 2 → ℝ} {N : ℕ} {s0 s' : ℝ × ℝ}
    {v' : Fin 2 → ℝ} (h : pathIntegrate cm vals N s0 = .ok (s', v')) :
    ∃ (s : ℕ → ℝ × ℝ) (im : ℕ → PathMat), s 0 = s0 ∧ s N = s' ∧ (im N).1 = v' ∧
      (∀ j ≤ N, cm (s j) = .ok (some (im j))) ∧ ∀ j < N, ∀ i,
        (im j).2 i 0 * ((s (j + 1)).1 - (s j).1) + (im j).2 i 1 * ((s (j + 1)).2 - (s j).2) =
          (vals i - (im 0).1 i) / N := by
  obtain ⟨im0, h1, h2⟩ := Outcome.bind_eq_ok.mp h
  cases im0 with
  | none => simp at h2
  | some im0 =>
    simp only at h2
    obtain ⟨s, im, e1, e2, e3, e4, e5, e6⟩ := pathLoop_steps N s0 im0 h1 h2
    refine ⟨s, im, e1, e3, e4, e5, fun j hj i => ?_⟩
    rw [e6 j hj i, e2]
    have hi : i = 0 ∨ i = 1 := by omega
    rcases hi with rfl | rfl
    · simp [div_eq_mul_inv]
    · simp [div_eq_mul_inv]

theorem pathLoop_ok {cm : ℝ × ℝ → Outcome (Option PathMat)} (hcm : ∀ s, ∃ im, cm s = .ok (some im) ∧ im.2.det ≠ 0)
    (dx dy dt : ℝ) (k : ℕ) (s0 : ℝ × ℝ) (im0 : PathMat) (h0 : im0.2.det ≠ 0) :
    ∃ out, pathLoop cm dx dy dt k s0 im0 = .ok out := by
  induction k generalizing s0 im0 with
  | zero => exact ⟨_, rfl⟩
  | succ k ih =>
    obtain ⟨r, hr, -⟩ := pathRates_exact h0 dx dy
    rw [pathLoop, hr]
    simp only
    obtain ⟨im', h1, h2⟩ := hcm (s0.1 + r.1 * dt, s0.2 + r.2 * dt)
    rw [h1, Outcome.bind_ok]
    exact ih _ _ h2

/-- **C74** Where all Jacobians are regular the path integration ends in a finite state. -/
theorem pathIntegrate_total {cm : ℝ × ℝ → Outcome (Option PathMat)}
    (hcm : ∀ s, ∃ im, cm s = .ok (some im) ∧ im.2.det ≠ 0) (vals : Fin 2 → ℝ) (N : ℕ) (s0 : ℝ × ℝ) :
    ∃ out, pathIntegrate cm vals N s0 = .ok out := by
  obtain ⟨im, h1, h2⟩ := hcm s0
  unfold pathIntegrate
  rw [h1, Outcome.bind_ok]
  exact pathLoop_ok hcm _ _ _ _ _ _ h2

/-- **C74** A start where the Jacobian is singular makes the whole integration fail, unless no step is asked for. -/
theorem pathIntegrate_singular {cm : ℝ × ℝ → Outcome (Option PathMat)} {vals : Fin 2 → ℝ} {N : ℕ} {s0 : ℝ × ℝ} {im : PathMat}
    (h : cm s0 = .ok (some im)) (hdet : im.2.det = 0) (hN : 0 < N) : pathIntegrate cm vals N s0 = .nonFinite := by
  obtain ⟨k, rfl⟩ : ∃ k, N = k + 1 := ⟨N - 1, by omega⟩
  unfold pathIntegrate
  rw [h, Outcome.bind_ok]
  simp only [pathLoop]
  rw [pathRates_singular hdet]

/-- **C74** Properties that are linear in temperature and density reach their targets, for every positive number of steps. -/
theorem pathIntegrate_linear {cm : ℝ × ℝ → Outcome (Option PathMat)} {M : Matrix (Fin 2) (Fin 2) ℝ} {c : Fin 2 → ℝ}
    (hv : ∀ s, cm s = .ok (some (fun i => M i 0 * s.1 + M i 1 * s.2 + c i, M))) (vals : Fin 2 → ℝ) {N : ℕ} (hN : 0 < N)
    (s0 : ℝ × ℝ) (hdet : M.det ≠ 0) :
    ∃ s', pathIntegrate cm vals N s0 = .ok (s', vals) ∧ ∀ i, M i 0 * s'.1 + M i 1 * s'.2 + c i = vals i := by
  obtain ⟨⟨s', v'⟩, hout⟩ := pathIntegrate_total (cm := cm) (fun s => ⟨_, hv s, hdet⟩) vals N s0
  obtain ⟨s, im, h0, h1, h2, h3, h4⟩ := pathIntegrate_steps hout
  have him : ∀ j ≤ N, im j = (fun i => M i 0 * (s j).1 + M i 1 * (s j).2 + c i, M) := fun j hj => by
    have := h3 j hj
    rw [hv] at this
    exact (Option.some.inj (Outcome.ok.inj this)).symm
  have hN' : (N : ℝ) ≠ 0 := by positivity
  have key : ∀ k ≤ N, ∀ i, (im k).1 i = (im 0).1 i + k * ((vals i - (im 0).1 i) / N) := by
    intro k
    induction k with
    | zero => intro _ i; simp
    | succ k ih =>
      intro hk i
      have h5 := h4 k (by omega) i
      have h6 := ih (by omega) i
      rw [him k (by omega)] at h5 h6
      rw [him (k + 1) hk]
      simp only at h5 h6 ⊢
      push_cast
      linarith
  have hfin : v' = vals := by
    funext i
    rw [← h2, key N le_rfl i]
    field_simp
    ring
  refine ⟨s', by rw [hout, hfin], fun i => ?_⟩
  have := congrFun h2 i
  rw [him N le_rfl, hfin, h1] at this
  exact this

/-- **C74** With temperature and density as the properties the path ends at the targets, though two entries of the Jacobian vanish. -/
theorem pathIntegrate_TD {p : NRIter} (hv : p.vars = ['T', 'D']) {N : ℕ} (hN : 0 < N) (s0 : ℝ × ℝ) :
    pathIntegrate (pathMatrices p) p.vals N s0 = .ok ((p.vals 0, p.vals 1), p.vals) := by
  have hm : ∀ s, pathMatrices p s = .ok (some (fun i => (!![1, 0; 0, 1] : Matrix (Fin 2) (Fin 2) ℝ) i 0 * s.1 +
      (!![1, 0; 0, 1] : Matrix (Fin 2) (Fin 2) ℝ) i 1 * s.2 + 0, !![1, 0; 0, 1])) := by
    intro s
    simp only [pathMatrices, calcMatrices]
    rw [hv, buildIterationJv_pair]
    have e : (![s.1, s.2] : Fin 2 → ℝ) = fun i => (!![1, 0; 0, 1] : Matrix (Fin 2) (Fin 2) ℝ) i 0 * s.1 +
      (!![1, 0; 0, 1] : Matrix (Fin 2) (Fin 2) ℝ) i 1 * s.2 + 0 := by
      funext i; fin_cases i <;> simp
    rw [← e]
    simp [jvRow, rowDivides]
  obtain ⟨s', h1, h2⟩ := pathIntegrate_linear (c := fun _ => 0) hm p.vals hN s0 (by rw [Matrix.det_fin_two]; norm_num)
  have e1 := h2 0
  have e2 := h2 1
  simp at e1 e2
  rw [h1, ← e1, ← e2]

/-! ## Concrete runs -/

/-- Cramer's rule. -/
noncomputable def cramer2 (J : Matrix (Fin 2) (Fin 2) ℝ) (b : Fin 2 → ℝ) : Option (Fin 2 → ℝ) :=
  some ![(b 0 * J 1 1 - J 0 1 * b 1) / (J 0 0 * J 1 1 - J 0 1 * J 1 0),
    (J 0 0 * b 1 - b 0 * J 1 0) / (J 0 0 * J 1 1 - J 0 1 * J 1 0)]

theorem cramer2_solves {p : NRIter} (h : p.solve = cramer2) : SolvesPair p := by
  intro J b hdet
  rw [Matrix.det_fin_two] at hdet
  refine ⟨_, by rw [h]; rfl, fun i => ?_⟩
  have hi : i = 0 ∨ i = 1 := by omega
  generalize hD : J 0 0 * J 1 1 - J 0 1 * J 1 0 = D at hdet
  rcases hi with rfl | rfl
  · simp only [Matrix.cons_val_zero, Matrix.cons_val_one, Matrix.cons_val_fin_one]
    field_simp
    rw [← hD]; ring
  · simp only [Matrix.cons_val_zero, Matrix.cons_val_one, Matrix.cons_val_fin_one]
    field_simp
    rw [← hD]; ring

/-- A fluid with `∂α/∂ρ = (ρ-1)²`, so that `p = ρ²(ρ-1)² R T`, at temperature one: its density is sought from its pressure. -/
noncomputable def loopFluid (target thr : ℝ) (conds : List StopCond) : NRIter where
  vars := ['T', 'P']
  vals := ![1, target]
  rel := (false, false)
  conds := conds ++ [.maxAbs thr]
  A _ ρ i j := if i = 0 ∧ j = 1 then ρ * (ρ - 1) ^ 2 else if i = 0 ∧ j = 2 then ρ ^ 2 * (2 * (ρ - 1)) else
    if i = 0 ∧ j = 0 then (ρ - 1) ^ 3 / 3 else 0
  R := 1
  solve := cramer2

theorem loopFluid_free (a b : ℝ) (cs : List StopCond) : freeIndices (loopFluid a b cs).vars = .ok [1] := by
  show freeIndices ['T', 'P'] = .ok [1]
  decide

/-- Residual and step at temperature one. -/
theorem loopFluid_step (target thr : ℝ) (cs : List StopCond) {ρ : ℝ} (hρ : ρ ≠ 0) :
    stepData (loopFluid target thr cs) false (some ![1, ρ]) =
      .ok (some ![0, -(ρ ^ 2 * (ρ - 1) ^ 2 - target) / (ρ * (ρ - 1) * (4 * ρ - 2))],
        some ![0, ρ ^ 2 * (ρ - 1) ^ 2 - target]) := by
  have hm : calcMatrices (loopFluid target thr cs) (some ![1, ρ]) =
      .ok (some (![1, ρ ^ 2 * (ρ - 1) ^ 2], !![1, 0; ρ ^ 2 * (ρ - 1) ^ 2, ρ * (ρ - 1) * (4 * ρ - 2)])) := by
    unfold calcMatrices
    simp only [loopFluid]
    rw [buildIterationJv_pair]
    simp [jvRow, rowDivides, hρ]
    refine ⟨Or.inl (by ring), ?_⟩
    field_simp
    ring
  have hs : ∀ i, relScale (loopFluid target thr cs) i = 1 := by intro i; fin_cases i <;> rfl
  have hsys : calcSystem (loopFluid target thr cs) false (some ![1, ρ]) =
      .ok (some (![0, ρ ^ 2 * (ρ - 1) ^ 2 - target], !![1, 0; ρ ^ 2 * (ρ - 1) ^ 2, ρ * (ρ - 1) * (4 * ρ - 2)])) := by
    unfold calcSystem
    rw [hm, Outcome.bind_ok]
    simp only [hs]
    simp
    refine ⟨?_, ?_⟩
    · ext i; fin_cases i <;> simp [loopFluid]
    · ext i j; fin_cases i <;> rfl
  unfold stepData
  rw [hsys, Outcome.bind_ok]
  simp [calcStep, loopFluid, cramer2]

theorem firstStop_last {d : StopData} {pre : List StopCond} {c : StopCond} (h : ∀ c' ∈ pre, c'.stop d = .keepGoing)
    (hc : c.stop d ≠ .keepGoing) : firstStop d (pre ++ [c]) = some (c.stop d, c.desc) := by
  induction pre with
  | nil => simp [firstStop, hc]
  | cons a pre ih =>
    rw [List.forall_mem_cons] at h
    simp [firstStop, h.1, ih h.2]

theorem loopFluid_run {target thr ρ ρ' : ℝ} {cs : List StopCond} (hρ : ρ ≠ 0)
    (hpre : ∀ c ∈ cs, ∀ dx r, c.stop ⟨10, some ![1, ρ], some dx, some r, [1]⟩ = .keepGoing) (hthr : 0 < thr)
    (hr : |ρ ^ 2 * (ρ - 1) ^ 2 - target| < thr)
    (hρ' : ρ' = ρ + -(ρ ^ 2 * (ρ - 1) ^ 2 - target) / (ρ * (ρ - 1) * (4 * ρ - 2))) :
    takeSteps (loopFluid target thr cs) false 10 ⟨some ![1, ρ], 0, ""⟩ =
      .ok (⟨some ![1, ρ'], 1, "MaxAbsErrorCondition"⟩, .success) := by
  unfold takeSteps
  rw [loopFluid_free, Outcome.bind_ok, if_neg (by norm_num), show (10 : ℤ).toNat = 9 + 1 from rfl, stepLoop,
    loopFluid_step _ _ _ hρ, Outcome.bind_ok, if_neg (by simp)]
  have h1 : (StopCond.maxAbs thr).stop ⟨10, some ![1, ρ],
      some ![0, -(ρ ^ 2 * (ρ - 1) ^ 2 - target) / (ρ * (ρ - 1) * (4 * ρ - 2))],
      some ![0, ρ ^ 2 * (ρ - 1) ^ 2 - target], [1]⟩ = .success :=
    maxAbs_success.mpr ⟨_, rfl, by simpa using hthr, by simpa using hr⟩
  have h2 := firstStop_last (fun c hc => hpre c hc _ _) (by rw [h1]; simp)
  rw [h1] at h2
  have h3 : (loopFluid target thr cs).conds = cs ++ [.maxAbs thr] := rfl
  simp only [h3, h2, addStep]
  have e : (fun i => (![1, ρ] : Fin 2 → ℝ) i +
      (![0, -(ρ ^ 2 * (ρ - 1) ^ 2 - target) / (ρ * (ρ - 1) * (4 * ρ - 2))] : Fin 2 → ℝ) i) = ![1, ρ'] := by
    funext i
    fin_cases i
    · simp
    · simp [hρ']
  rw [e]
  rfl

/-- **C47** Success speaks about the state before the last step only: here the residual condition with threshold one reports
success, but in the state returned the pressure is off by more than three. -/
theorem takeSteps_success_before_step :
    takeSteps (loopFluid (205 / 256) 1 []) false 10 ⟨some ![1, 5 / 4], 0, ""⟩ =
      .ok (⟨some ![1, 2], 1, "MaxAbsErrorCondition"⟩, .success) ∧
    ∃ e, calcMaxabsr (loopFluid (205 / 256) 1 []) 1 2 = .ok e ∧ 3 < e := by
  constructor
  · exact loopFluid_run (by norm_num) (by simp) (by norm_num) (by norm_num [abs_lt]) (by norm_num)
  · refine ⟨_, by simp [calcMaxabsr, loopFluid, valRow, Outcome.bind_ok, relScale]; rfl, ?_⟩
    norm_num [abs_lt]

/-- **C47** A sign condition does not keep negative densities from being returned as a success. -/
theorem takeSteps_success_negative :
    takeSteps (loopFluid (25 / 256 - 45 / 32) 2 [.negativeX, .nanXDX]) false 10 ⟨some ![1, 5 / 4], 0, ""⟩ =
      .ok (⟨some ![1, -1 / 4], 1, "MaxAbsErrorCondition"⟩, .success) := by
  refine loopFluid_run (by norm_num) ?_ (by norm_num) (by norm_num [abs_lt]) (by norm_num)
  intro c hc dx r
  have hn : ¬(5 / 4 : ℝ) < 0 := by norm_num
  simp only [List.mem_cons, List.not_mem_nil, or_false] at hc
  rcases hc with rfl | rfl
  · simp [StopCond.stop, hn]
  · simp [StopCond.stop]

/-- The hypotheses of `calcSystem_exact` are met: pressure and entropy asked of an ideal gas with relative errors. -/
example : ∃ (p : NRIter) (α : ℝ → ℝ → ℝ), p.vars = ['P', 'S'] ∧ DerivsOf p α 300 2 ∧ (∀ i, relScale p i ≠ 0) ∧
    stateFunction 'P' α p.R = some (pressure α p.R) ∧ stateFunction 'S' α p.R = some (entropy α p.R) ∧ SolvesPair p := by
  have hc : ContDiffAt ℝ 2 (unc fun T ρ : ℝ => ρ ^ 2 / T + ρ * T) (300, 2) := by
    have h1 : ContDiffAt ℝ 2 (fun p : ℝ × ℝ => p.1) ((300 : ℝ), (2 : ℝ)) := contDiffAt_fst
    have h2 : ContDiffAt ℝ 2 (fun p : ℝ × ℝ => p.2) ((300 : ℝ), (2 : ℝ)) := contDiffAt_snd
    exact ((h2.pow 2).div h1 (by norm_num)).add (h2.mul h1)
  generalize (fun T ρ : ℝ => ρ ^ 2 / T + ρ * T) = α at hc
  refine ⟨⟨['P', 'S'], ![1000, 50], (true, true), [.maxAbs 1], fun T ρ i j => Lambda α i j T ρ, 8, cramer2⟩, α, rfl,
    ⟨rfl, by norm_num, by norm_num, hc⟩, ?_, by simp [stateFunction], by simp [stateFunction], cramer2_solves rfl⟩
  intro i
  fin_cases i <;> simp [relScale]

/-- Two calls for 30 steps each with a limit of 50: sixty steps, and the limit does not fire. -/
example {p : NRIter} {log : Bool} {s s' s'' : IterState} {r r' : StopReason} (hc : p.conds = [.stepCount 50])
    (hf : freeIndices p.vars ≠ .ok []) (h : takeSteps p log 30 s = .ok (s', r)) (h' : takeSteps p log 30 s' = .ok (s'', r')) :
    s''.steps = s.steps + 60 ∧ s''.msg = s.msg := by
  have h1 := (stepCount_ignores_steps (by norm_num) hc hf h).2 (by norm_num)
  have h2 := (stepCount_ignores_steps (by norm_num) hc hf h').2 (by norm_num)
  refine ⟨?_, h2.2.2.trans h1.2.2⟩
  rw [h2.1, h1.1]
  rfl

/-- An object that has made 17 steps is reset and solved again: one step is counted. -/
example : ∃ (p : NRIter) (s' : IterState), takeSteps p true 10 (resetIter ⟨none, 17, "failed"⟩ 300 1) = .ok (s', .success) ∧ s'.steps = 1 := by
  let p : NRIter := ⟨['T', 'D'], ![300, 2], (false, false), [.maxAbs 1], fun _ _ _ _ => 0, 8, cramer2⟩
  obtain ⟨y, h1, -, h2, -⟩ := takeSteps_TD_log (p := p) rfl (cramer2_solves rfl) (by intro i; fin_cases i <;> simp [relScale, p])
    (N := 10) (by norm_num) (x := ![300, 1]) (by norm_num) 0 "failed"
  exact ⟨p, _, h1, rfl⟩

/-- The density is asked to go from one to two: the logarithmic version stops at `e`. -/
example : ∃ (p : NRIter) (y : Fin 2 → ℝ), p.vals = ![300, 2] ∧ p.vars = ['T', 'D'] ∧
    takeSteps p true 10 ⟨some ![300, 1], 0, ""⟩ = .ok (⟨some y, 1, msgTD⟩, .success) ∧ y 1 = Real.exp 1 := by
  let p : NRIter := ⟨['T', 'D'], ![300, 2], (false, false), [.maxAbs 1], fun _ _ _ _ => 0, 8, cramer2⟩
  obtain ⟨y, h1, -, h2, -⟩ := takeSteps_TD_log (p := p) rfl (cramer2_solves rfl) (by intro i; fin_cases i <;> simp [relScale, p])
    (N := 10) (by norm_num) (x := ![300, 1]) (by norm_num) 0 ""
  refine ⟨p, y, rfl, rfl, h1, ?_⟩
  rw [h2]
  simp [p]
  norm_num

/-- Linear properties reach their targets. -/
example : ∃ s', pathIntegrate (fun s => .ok (some (fun i => (!![1, 2; 3, 4] : Matrix (Fin 2) (Fin 2) ℝ) i 0 * s.1 +
      (!![1, 2; 3, 4] : Matrix (Fin 2) (Fin 2) ℝ) i 1 * s.2 + ![5, 6] i, !![1, 2; 3, 4]))) ![7, 8] 10 (1, 1) = .ok (s', ![7, 8]) := by
  obtain ⟨s', h, -⟩ := pathIntegrate_linear (M := !![1, 2; 3, 4]) (c := ![5, 6]) (fun _ => rfl) ![7, 8] (N := 10) (by norm_num)
    (1, 1) (by rw [Matrix.det_fin_two]; norm_num)
  exact ⟨s', h⟩

/-- Path rates of a regular Jacobian without zeros, of one with a zero, and of a singular one. -/
example : pathRates !![1, 2; 3, 4] 1 0 = some (-2, 3 / 2) ∧ pathRates !![1, 0; 3, 4] 1 0 = some (1, -3 / 4) ∧
    pathRates !![1, 2; 2, 4] 1 0 = none := by
  refine ⟨?_, ?_, pathRates_singular (by rw [Matrix.det_fin_two]; norm_num) _ _⟩
  · simp [pathRates, pathRate]
    norm_num
  · simp [pathRates, pathRate]
    norm_num

/-- Ten steps from `(300, 1)` to `(400, 2)`. -/
example : pathIntegrate (pathMatrices ⟨['T', 'D'], ![400, 2], (false, false), [], fun _ _ _ _ => 0, 8, fun _ _ => none⟩) ![400, 2] 10
    (300, 1) = .ok ((400, 2), ![400, 2]) :=
  pathIntegrate_TD (p := ⟨['T', 'D'], ![400, 2], (false, false), [], fun _ _ _ _ => 0, 8, fun _ _ => none⟩) rfl (by norm_num) _

end Teqp.Props

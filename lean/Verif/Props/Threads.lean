import Verif.Model.Threads
import Mathlib.Tactic

/-! # Evaluations on two threads -/

set_option autoImplicit false

namespace Teqp.Spec

/-- A mixture of two finite sequences of turns in which the first thread has `p` turns and the second has `q`. -/
def IsSchedule (p q : ℕ) (s : List Bool) : Prop := s.count true = p ∧ s.count false = q

end Teqp.Spec

namespace Teqp.Props
open Teqp.Model Teqp.Spec

variable {n : ℕ}

/-- Some turns of one thread. -/
noncomputable def clenTurns (k : ℕ) (s : ClenThread n × ClenBuf n) : ClenThread n × ClenBuf n := (fun s => clenStep s.1 s.2)^[k] s

theorem clenTurns_succ (k : ℕ) (s : ClenThread n × ClenBuf n) : clenTurns (k + 1) s = clenTurns k (clenStep s.1 s.2) := rfl

theorem clenLoopProg_length (N : ℕ) : (clenLoopProg N).length = 3 * N + 2 := by
  induction N with
  | zero => rfl
  | succ k ih => simp only [clenLoopProg, List.length_cons, ih]; omega

theorem clenLoop_run (a : ℕ → Fin n → ℝ) (y : ℝ) (N : ℕ) (b : ClenBuf n) (r : Option (Fin n → ℝ)) :
    (clenTurns (3 * N + 2) (⟨a, y, clenLoopProg N, r⟩, b)).1 = ⟨a, y, [], some fun j => clenshaw1D y (fun k => a k j) N (b.kp1 j, b.kp2 j)⟩ := by
  induction N generalizing b r with
  | zero => rfl
  | succ k ih =>
    rw [show 3 * (k + 1) + 2 = (3 * k + 2) + 1 + 1 + 1 by ring, clenTurns_succ, clenTurns_succ, clenTurns_succ]
    simp only [clenStep, clenLoopProg, clenEffect]
    rw [ih]
    rfl

theorem clenProg_run (a : ℕ → Fin n → ℝ) (y : ℝ) (N : ℕ) (b : ClenBuf n) :
    (clenTurns (3 * N + 5) (clenStart N a y, b)).1 = ⟨a, y, [], some fun j => clenshaw1D y (fun k => a k j) N (0, 0)⟩ := by
  rw [show 3 * N + 5 = (3 * N + 2) + 1 + 1 + 1 by ring, clenTurns_succ, clenTurns_succ, clenTurns_succ]
  simp only [clenStep, clenStart, clenProg, clenEffect]
  rw [clenLoop_run]

theorem clenTurns_done (t : ClenThread n) (h : t.todo = []) (k : ℕ) (b : ClenBuf n) : clenTurns k (t, b) = (t, b) := by
  induction k with
  | zero => rfl
  | succ k ih =>
    rw [clenTurns_succ]
    have : clenStep t b = (t, b) := by unfold clenStep; rw [h]
    rw [this]; exact ih

theorem runPrivate_eq (s : List Bool) (t u : ClenThread n × ClenBuf n) :
    runPrivate s t u = (clenTurns (s.count true) t, clenTurns (s.count false) u) := by
  induction s generalizing t u with
  | nil => rfl
  | cons c s ih =>
    cases c with
    | true => simp only [runPrivate, List.count_cons_self, ih, clenTurns_succ]; rfl
    | false => simp only [runPrivate, List.count_cons_self, ih, clenTurns_succ]; rfl

/-- With arrays of their own, two evaluations have the values of sequential evaluations in every interleaving that completes them. -/
theorem threads_private_independent (N : ℕ) (a a' : ℕ → Fin n → ℝ) (y y' : ℝ) (b b' : ClenBuf n) (s : List Bool)
    (hs : IsSchedule (3 * N + 5) (3 * N + 5) s) :
    (runPrivate s (clenStart N a y, b) (clenStart N a' y', b')).1.1.result = some (fun j => clenshaw1D y (fun k => a k j) N (0, 0)) ∧
    (runPrivate s (clenStart N a y, b) (clenStart N a' y', b')).2.1.result = some (fun j => clenshaw1D y' (fun k => a' k j) N (0, 0)) := by
  rw [runPrivate_eq, hs.1, hs.2, clenProg_run, clenProg_run]
  exact ⟨rfl, rfl⟩

theorem runShared_first (k : ℕ) (s : List Bool) (t u : ClenThread n) (b : ClenBuf n) :
    runShared (List.replicate k true ++ s) t u b = runShared s (clenTurns k (t, b)).1 u (clenTurns k (t, b)).2 := by
  induction k generalizing t b with
  | zero => rfl
  | succ k ih =>
    rw [List.replicate_succ, List.cons_append]
    simp only [runShared]
    rw [ih, clenTurns_succ]

theorem runShared_second (k : ℕ) (s : List Bool) (t u : ClenThread n) (b : ClenBuf n) :
    runShared (List.replicate k false ++ s) t u b = runShared s t (clenTurns k (u, b)).1 (clenTurns k (u, b)).2 := by
  induction k generalizing u b with
  | zero => rfl
  | succ k ih =>
    rw [List.replicate_succ, List.cons_append]
    simp only [runShared]
    rw [ih, clenTurns_succ]

/-- With the static arrays, evaluations that do not overlap have the right values, whatever the arrays contain before. -/
theorem threads_sequential_partial (N : ℕ) (a a' : ℕ → Fin n → ℝ) (y y' : ℝ) (b : ClenBuf n) :
    (runShared (List.replicate (3 * N + 5) true ++ (List.replicate (3 * N + 5) false ++ [])) (clenStart N a y) (clenStart N a' y') b).1.result
      = some (fun j => clenshaw1D y (fun k => a k j) N (0, 0)) ∧
    (runShared (List.replicate (3 * N + 5) true ++ (List.replicate (3 * N + 5) false ++ [])) (clenStart N a y) (clenStart N a' y') b).2.1.result
      = some (fun j => clenshaw1D y' (fun k => a' k j) N (0, 0)) := by
  rw [runShared_first, runShared_second]
  simp only [runShared]
  rw [clenProg_run, clenProg_run]
  exact ⟨rfl, rfl⟩

/-- The turn before the last of an evaluation leaves only the reading of the result. -/
theorem clenLoop_before (a : ℕ → Fin n → ℝ) (y : ℝ) (N : ℕ) (b : ClenBuf n) (r : Option (Fin n → ℝ)) :
    (clenTurns (3 * N + 1) (⟨a, y, clenLoopProg N, r⟩, b)).1 = ⟨a, y, [.read], r⟩ := by
  induction N generalizing b r with
  | zero => rfl
  | succ k ih =>
    rw [show 3 * (k + 1) + 1 = (3 * k + 1) + 1 + 1 + 1 by ring, clenTurns_succ, clenTurns_succ, clenTurns_succ]
    simp only [clenStep, clenLoopProg, clenEffect]
    exact ih _ _

/-- The static arrays are shared: whenever the value of an evaluation is not zero, there is an interleaving with a second evaluation of the same model
that completes both and in which the first one has the wrong value zero. -/
theorem threads_interfere (N : ℕ) (a : ℕ → Fin n → ℝ) (y y' : ℝ) (b : ClenBuf n) (h : (fun j => clenshaw1D y (fun k => a k j) N (0, 0)) ≠ fun _ => 0) :
    ∃ s, IsSchedule (3 * N + 5) (3 * N + 5) s ∧
      (runShared s (clenStart N a y) (clenStart N a y') b).1.result = some (fun _ => 0) ∧
      (runShared s (clenStart N a y) (clenStart N a y') b).1.result ≠ some (fun j => clenshaw1D y (fun k => a k j) N (0, 0)) := by
  refine ⟨List.replicate (3 * N + 4) true ++ (List.replicate 3 false ++ (List.replicate 1 true ++ (List.replicate (3 * N + 2) false ++ []))), ⟨?_, ?_⟩, ?_⟩
  · simp [List.count_replicate]
  · simp [List.count_replicate]
  have key : (runShared (List.replicate (3 * N + 4) true ++ (List.replicate 3 false ++ (List.replicate 1 true ++ (List.replicate (3 * N + 2) false ++ []))))
      (clenStart N a y) (clenStart N a y') b).1.result = some (fun _ => 0) := by
    rw [runShared_first, runShared_second, runShared_first, runShared_second]
    simp only [runShared]
    have e : (clenTurns (3 * N + 4) (clenStart N a y, b)).1 = ⟨a, y, [.read], none⟩ := by
      rw [show 3 * N + 4 = (3 * N + 1) + 1 + 1 + 1 by ring, clenTurns_succ, clenTurns_succ, clenTurns_succ]
      simp only [clenStep, clenStart, clenProg, clenEffect]
      exact clenLoop_before a y N _ _
    rw [e]
    simp [clenTurns, clenStep, clenStart, clenProg, clenEffect]
  refine ⟨key, ?_⟩
  rw [key]
  intro h'
  injection h' with h'
  exact h h'.symm

/-- A matrix of one element: the value is one half of it. -/
example : (fun j : Fin 1 => clenshaw1D 0.5 (fun k => (fun (_ : ℕ) (_ : Fin 1) => (3 : ℝ)) k j) 0 (0, 0)) ≠ fun _ => 0 := by
  intro h
  have := congrFun h 0
  simp [clenshaw1D] at this

end Teqp.Props

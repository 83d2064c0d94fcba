import Verif.Model.Superanc

/-! # Evaluations on two threads

The only function templates with mutable static storage in `/repo/include/teqp` are `powIVi` (`types.hpp` lines 172-182), which is not called, and
`Chebyshev2DEOSTerm::Clenshaw1DByRow` (`multifluid_eosterms.hpp` lines 276-300).  Here the latter runs on two threads as sequences of assignments to whole arrays.
The real accesses are finer and a data race is undefined behaviour; the interleavings of this model are some of those that a machine can show. -/

set_option autoImplicit false

namespace Teqp.Model

/-- The static arrays of lines 282. -/
structure ClenBuf (n : ℕ) where
  k : Fin n → ℝ
  kp1 : Fin n → ℝ
  kp2 : Fin n → ℝ

/-- The assignments of lines 289-297 and the expression of line 299. -/
inductive ClenStep where
  | clearK
  | clear1
  | clear2
  | row (k : ℕ)
  | shift2
  | shift1
  | read
  deriving DecidableEq

/-- One evaluation: its matrix, its argument, what is still to be done and its result. -/
structure ClenThread (n : ℕ) where
  a : ℕ → Fin n → ℝ
  y : ℝ
  todo : List ClenStep
  result : Option (Fin n → ℝ)

/-- The loop of lines 291-298 from the row `k` downwards, then the result. -/
def clenLoopProg : ℕ → List ClenStep
  | 0 => [.row 0, .read]
  | k + 1 => .row (k + 1) :: .shift2 :: .shift1 :: clenLoopProg k

/-- `Clenshaw1DByRow` for a square matrix of size `N + 1`, lines 277-299. -/
def clenProg (N : ℕ) : List ClenStep := .clearK :: .clear1 :: .clear2 :: clenLoopProg N

/-- The effect of an assignment on the arrays. -/
noncomputable def clenEffect {n : ℕ} (a : ℕ → Fin n → ℝ) (y : ℝ) : ClenStep → ClenBuf n → ClenBuf n
  | .clearK, b => { b with k := fun _ => 0 }
  | .clear1, b => { b with kp1 := fun _ => 0 }
  | .clear2, b => { b with kp2 := fun _ => 0 }
  | .row r, b => { b with k := fun j => 2 * y * b.kp1 j - b.kp2 j + a r j }
  | .shift2, b => { b with kp2 := b.kp1 }
  | .shift1, b => { b with kp1 := b.k }
  | .read, b => b

/-- The next step of a thread with the arrays `b`. -/
noncomputable def clenStep {n : ℕ} (t : ClenThread n) (b : ClenBuf n) : ClenThread n × ClenBuf n :=
  match t.todo with
  | [] => (t, b)
  | s :: ss => ({ t with todo := ss, result := if s = .read then some (fun j => (b.k j - b.kp2 j) / 2) else t.result }, clenEffect t.a t.y s b)

/-- Two threads with one set of arrays: the code. -/
noncomputable def runShared {n : ℕ} : List Bool → ClenThread n → ClenThread n → ClenBuf n → ClenThread n × ClenThread n × ClenBuf n
  | [], t, u, b => (t, u, b)
  | true :: s, t, u, b => runShared s (clenStep t b).1 u (clenStep t b).2
  | false :: s, t, u, b => runShared s t (clenStep u b).1 (clenStep u b).2

/-- Two threads with arrays of their own, as for all other functions. -/
noncomputable def runPrivate {n : ℕ} : List Bool → ClenThread n × ClenBuf n → ClenThread n × ClenBuf n → (ClenThread n × ClenBuf n) × (ClenThread n × ClenBuf n)
  | [], t, u => (t, u)
  | true :: s, t, u => runPrivate s (clenStep t.1 t.2) u
  | false :: s, t, u => runPrivate s t (clenStep u.1 u.2)

/-- A thread that starts an evaluation. -/
def clenStart {n : ℕ} (N : ℕ) (a : ℕ → Fin n → ℝ) (y : ℝ) : ClenThread n := ⟨a, y, clenProg N, none⟩

end Teqp.Model

import Verif.Model.IterationJv
import Mathlib.Analysis.SpecialFunctions.Exp
import Mathlib.LinearAlgebra.Matrix.Notation

/-!
# The iterator for pairs of properties

Models `NRIterator`, `AlphaModel` and the stopping conditions of `/repo/include/teqp/algorithms/iteration.hpp`.

Pairs `(T, ρ)` are `Fin 2 → ℝ`.  A vector with an entry that is not finite is `none`: once one entry of the system is not
finite the solver spreads it to both unknowns.  The linear solver is a parameter, and `A T ρ i j` stands for the sum of the
derivative matrices of the two models.  An exception leaves the iterator with the steps taken so far; the model returns the
exception only.
-/

set_option autoImplicit false

namespace Teqp.Model

/-- `StoppingConditionReason` (`iteration.hpp` line 16). -/
inductive StopReason where
  | notSpecified
  | keepGoing
  | success
  | fatal
  deriving DecidableEq

/-- `StoppingData` (`iteration.hpp` lines 23-29). -/
structure StopData where
  N : ℤ
  x : Option (Fin 2 → ℝ)
  dx : Option (Fin 2 → ℝ)
  r : Option (Fin 2 → ℝ)
  free : List (Fin 2)

/-- The stopping conditions of the library (`iteration.hpp` lines 43-123), and classes derived by the user. -/
inductive StopCond where
  | maxAbs (threshold : ℝ)
  | minRelStep (threshold : ℝ)
  | nanXDX
  | negativeX
  | stepCount (Nmax : ℤ)
  | other (desc : String) (f : StopData → StopReason)

open Classical in
/-- The loop of `MinRelStepsizeCondition` (`iteration.hpp` lines 67-71).  `none` stands for a running value that is NaN or
infinite: `std::min(val, minval)` is `val` when either is NaN, and no comparison with it succeeds later. -/
noncomputable def minRel (x dx : Fin 2 → ℝ) : List (Fin 2) → Option ℝ → Option ℝ
  | [], acc => acc
  | i :: is, acc =>
    minRel x dx is
      (if x i = 0 then (if dx i = 0 then none else acc)
      else match acc with
        | none => some |dx i / x i|
        | some a => some (min |dx i / x i| a))

open Classical in
/-- `stop` of the conditions (`iteration.hpp` lines 43-123).  The maximum of residuals that are not finite counts as not below
the threshold.  `Nmax` is converted to an unsigned number, so that a negative one is never reached; `data.N` is the number of
steps requested. -/
noncomputable def StopCond.stop (data : StopData) : StopCond → StopReason
  | .maxAbs thr =>
    match data.r with
    | none => .keepGoing
    | some r => if max |r 0| |r 1| < thr then .success else .keepGoing
  | .minRelStep thr =>
    match data.free with
    | [] => if 10 ^ 99 < thr then .success else .keepGoing
    | _ :: _ =>
      match data.x, data.dx with
      | some x, some dx =>
        match minRel x dx data.free (some (10 ^ 99)) with
        | none => .keepGoing
        | some a => if a < thr then .success else .keepGoing
      | _, _ => .keepGoing
  | .nanXDX => if data.free ≠ [] ∧ (data.x = none ∨ data.dx = none) then .fatal else .keepGoing
  | .negativeX =>
    match data.x with
    | none => .keepGoing
    | some x => if ∃ i ∈ data.free, x i < 0 then .fatal else .keepGoing
  | .stepCount Nmax => if 0 ≤ Nmax ∧ Nmax ≤ data.N then .fatal else .keepGoing
  | .other _ f => f data

/-- `desc` of the conditions (`iteration.hpp` lines 51-122). -/
def StopCond.desc : StopCond → String
  | .maxAbs _ => "MaxAbsErrorCondition"
  | .minRelStep _ => "MinRelStepsizeCondition"
  | .nanXDX => "NanXDXErrorCondition"
  | .negativeX => "NegativeXErrorCondition"
  | .stepCount _ => "StepCountErrorCondition"
  | .other d _ => d

/-- The loop over the stopping conditions (`iteration.hpp` lines 344-350): the first that does not say to keep going decides. -/
noncomputable def firstStop (data : StopData) : List StopCond → Option (StopReason × String)
  | [] => none
  | c :: cs => if c.stop data ≠ .keepGoing then some (c.stop data, c.desc) else firstStop data cs

/-- The constant members of `NRIterator` (`iteration.hpp` lines 230-239). -/
structure NRIter where
  vars : List Char
  vals : Fin 2 → ℝ
  rel : Bool × Bool
  conds : List StopCond
  A : ℝ → ℝ → ℕ → ℕ → ℝ
  R : ℝ
  solve : Matrix (Fin 2) (Fin 2) ℝ → (Fin 2 → ℝ) → Option (Fin 2 → ℝ)

/-- The variable members of `NRIterator` (`iteration.hpp` lines 235-242). -/
structure IterState where
  x : Option (Fin 2 → ℝ)
  steps : ℕ
  msg : String

/-- `nonconstant_indices` as the constructor computes it (`iteration.hpp` lines 248-250).  With fewer than two variables it reads
beyond their end. -/
def freeIndices : List Char → Outcome (List (Fin 2))
  | a :: b :: _ => .ok ((if a = 'T' ∨ b = 'T' then [] else [0]) ++ if a = 'D' ∨ b = 'D' then [] else [1])
  | _ => .ub

/-- Whether a row divides by temperature and density. -/
def rowDivides (c : Char) : Bool := c ≠ 'T' ∧ c ≠ 'D'

open Classical in
/-- `calc_matrices` (`iteration.hpp` lines 281-284): the two values and the two rows of the Jacobian; `none` when an entry is not
finite. -/
noncomputable def calcMatrices (p : NRIter) (x : Option (Fin 2 → ℝ)) :
    Outcome (Option ((Fin 2 → ℝ) × Matrix (Fin 2) (Fin 2) ℝ)) :=
  match x with
  | none => (buildIterationJv p.vars (fun _ _ => 0) p.R 1 1).bind fun _ => .ok none
  | some x =>
    (buildIterationJv p.vars (p.A (x 0) (x 1)) p.R (x 0) (x 1)).bind fun rows =>
      if (x 0 = 0 ∨ x 1 = 0) ∧ p.vars.any rowDivides then .ok none
      else match rows with
        | [r0, r1] => .ok (some (![r0.v, r1.v], !![r0.dT, r0.drho; r1.dT, r1.drho]))
        | _ => .ub

/-- Division by the target values where relative errors are asked for (`iteration.hpp` lines 298-299, 329-330). -/
noncomputable def relScale (p : NRIter) (i : Fin 2) : ℝ :=
  if i = 0 then (if p.rel.1 then p.vals 0 else 1) else (if p.rel.2 then p.vals 1 else 1)

open Classical in
/-- Residual and scaled Jacobian of a step (`iteration.hpp` lines 326-330, 375-380); with `log` the column of the density is
multiplied by the density. -/
noncomputable def calcSystem (p : NRIter) (log : Bool) (x : Option (Fin 2 → ℝ)) :
    Outcome (Option ((Fin 2 → ℝ) × Matrix (Fin 2) (Fin 2) ℝ)) :=
  (calcMatrices p x).bind fun im =>
    match im, x with
    | some (v, J), some x =>
      if ∃ i, relScale p i = 0 then .ok none
      else .ok (some (fun i => (v i - p.vals i) / relScale p i,
        Matrix.of fun i j => (if log ∧ j = 1 then J i j * x 1 else J i j) / relScale p i))
    | _, _ => .ok none

/-- The step in temperature and density (`iteration.hpp` lines 332, 402-404). -/
noncomputable def calcStep (p : NRIter) (log : Bool) (x : Fin 2 → ℝ) (r : Fin 2 → ℝ) (J : Matrix (Fin 2) (Fin 2) ℝ) :
    Option (Fin 2 → ℝ) :=
  match p.solve J (fun i => -r i) with
  | none => none
  | some s => some (if log then ![s 0, x 1 * (Real.exp (s 1) - 1)] else s)

/-- The parts of a step that the conditions see: the step and the residual. -/
noncomputable def stepData (p : NRIter) (log : Bool) (x : Option (Fin 2 → ℝ)) :
    Outcome (Option (Fin 2 → ℝ) × Option (Fin 2 → ℝ)) :=
  (calcSystem p log x).bind fun sys =>
    match sys, x with
    | some (r, J), some x => .ok (calcStep p log x r J, some r)
    | _, _ => .ok (none, none)

/-- `Trho += dTrho`. -/
def addStep (x dx : Option (Fin 2 → ℝ)) : Option (Fin 2 → ℝ) :=
  match x, dx with
  | some x, some dx => some fun i => x i + dx i
  | _, _ => none

/-- The message of both functions when both unknowns are prescribed. -/
def msgTD : String := "Only one step is needed for DT inputs"

/-- The loops of `take_steps` (`iteration.hpp` lines 325-357) and, with `log`, `take_steps_logrho` (lines 374-443); `K` passes
remain.  The former returns before the conditions are asked when both unknowns are prescribed; the latter asks them and
overwrites their answer. -/
noncomputable def stepLoop (p : NRIter) (free : List (Fin 2)) (log : Bool) (N : ℤ) :
    ℕ → IterState → Outcome (IterState × StopReason)
  | 0, s => .ok (s, .fatal)
  | K + 1, s =>
    (stepData p log s.x).bind fun d =>
      if free = [] then .ok (⟨addStep s.x d.1, s.steps + 1, msgTD⟩, .success)
      else match firstStop ⟨N, s.x, d.1, d.2, free⟩ p.conds with
        | some (reason, msg) => .ok (⟨addStep s.x d.1, s.steps + 1, msg⟩, reason)
        | none => stepLoop p free log N K ⟨addStep s.x d.1, s.steps + 1, s.msg⟩

/-- `take_steps` and `take_steps_logrho` (`iteration.hpp` lines 319-361, 367-447). -/
noncomputable def takeSteps (p : NRIter) (log : Bool) (N : ℤ) (s : IterState) : Outcome (IterState × StopReason) :=
  (freeIndices p.vars).bind fun free =>
    if N ≤ 0 then .throws .invalidArgument else stepLoop p free log N N.toNat s

/-- `reset` (`iteration.hpp` lines 271-274). -/
def resetIter (s : IterState) (T ρ : ℝ) : IterState := ⟨some ![T, ρ], 0, s.msg⟩

/-- One pass of the loop in `AlphaModel::get_vals` (`iteration.hpp` lines 169-213). -/
noncomputable def valRow (var : Char) (A : ℕ → ℕ → ℝ) (R T rho : ℝ) : Outcome ℝ :=
  let Trecip := 1 / T
  let alpha := A 0 0
  let dalphadTrecip := A 1 0 / Trecip
  let dalphadrho := A 0 1 / rho
  let a := alpha * R * T
  let dadTrecip := R / (Trecip * Trecip) * (Trecip * dalphadTrecip - alpha)
  let dadrho := R / Trecip * dalphadrho
  match var with
  | 'T' => .ok T
  | 'D' => .ok rho
  | 'P' => .ok (rho * rho * dadrho)
  | 'S' => .ok (Trecip * Trecip * dadTrecip)
  | 'H' => .ok (a + Trecip * dadTrecip + rho * dadrho)
  | 'U' => .ok (a + Trecip * dadTrecip)
  | _ => .throws .stdInvalidArgument

open Classical in
/-- `calc_maxabsr` (`iteration.hpp` lines 309-314).  With fewer than two variables an entry is not initialised, and a third one is
written beyond the end; a bad variable before that throws.  At zero temperature or density the derivatives are not finite. -/
noncomputable def calcMaxabsr (p : NRIter) (T ρ : ℝ) : Outcome ℝ :=
  match p.vars with
  | [] => .ub
  | [a] => (valRow a (p.A T ρ) p.R T ρ).bind fun _ => .ub
  | a :: b :: l =>
    (valRow a (p.A T ρ) p.R T ρ).bind fun va => (valRow b (p.A T ρ) p.R T ρ).bind fun vb =>
      match l with
      | [] =>
        if (T = 0 ∨ ρ = 0) ∧ (rowDivides a ∨ rowDivides b) ∨ relScale p 0 = 0 ∨ relScale p 1 = 0 then .nonFinite
        else .ok (max |(va - p.vals 0) / relScale p 0| |(vb - p.vals 1) / relScale p 1|)
      | c :: _ => (valRow c (p.A T ρ) p.R T ρ).bind fun _ => .ub

open Classical in
/-- A rate `num / (p - q * r / s)` in floating-point arithmetic: with `s = 0` the denominator is infinite and the rate is zero, unless
`q * r` vanishes too, and a vanishing denominator makes the rate infinite or NaN (`none`). -/
noncomputable def pathRate (num p q r s : ℝ) : Option ℝ :=
  if s = 0 then (if q * r = 0 then none else some 0)
  else if p - q * r / s = 0 then none else some (num / (p - q * r / s))

/-- The rates of temperature and density in `path_integration` (`iteration.hpp` lines 468-481), from the Jacobian and the rates of the
two properties. -/
noncomputable def pathRates (J : Matrix (Fin 2) (Fin 2) ℝ) (dxdt dydt : ℝ) : Option (ℝ × ℝ) :=
  match pathRate dxdt (J 0 0) (J 0 1) (J 1 0) (J 1 1), pathRate dydt (J 1 0) (J 1 1) (J 0 0) (J 0 1),
    pathRate dxdt (J 0 1) (J 0 0) (J 1 1) (J 1 0), pathRate dydt (J 1 1) (J 1 0) (J 0 1) (J 0 0) with
  | some a, some b, some c, some d => some (a + b, c + d)
  | _, _, _, _ => none

/-- The values and the Jacobian of `calc_matrices` at temperature and density. -/
abbrev PathMat := (Fin 2 → ℝ) × Matrix (Fin 2) (Fin 2) ℝ

/-- The loop of `path_integration` (`iteration.hpp` lines 466-489) with `k` passes to go; `cm` is `calc_matrices`.  A number that is
not finite stays until the end. -/
noncomputable def pathLoop (cm : ℝ × ℝ → Outcome (Option PathMat)) (dxdt dydt dt : ℝ) :
    ℕ → ℝ × ℝ → PathMat → Outcome ((ℝ × ℝ) × (Fin 2 → ℝ))
  | 0, s, im => .ok (s, im.1)
  | k + 1, s, im =>
    match pathRates im.2 dxdt dydt with
    | none => .nonFinite
    | some r =>
      (cm (s.1 + r.1 * dt, s.2 + r.2 * dt)).bind fun im' =>
        match im' with
        | none => .nonFinite
        | some im' => pathLoop cm dxdt dydt dt k (s.1 + r.1 * dt, s.2 + r.2 * dt) im'

/-- `path_integration` (`iteration.hpp` lines 448-491): the last temperature and density and the two properties there.  Without
steps `dt` is infinite but not used. -/
noncomputable def pathIntegrate (cm : ℝ × ℝ → Outcome (Option PathMat)) (vals : Fin 2 → ℝ) (N : ℕ) (s : ℝ × ℝ) :
    Outcome ((ℝ × ℝ) × (Fin 2 → ℝ)) :=
  (cm s).bind fun im =>
    match im with
    | none => .nonFinite
    | some im => pathLoop cm ((vals 0 - im.1 0) / (1 - 0)) ((vals 1 - im.1 1) / (1 - 0)) (1 / (N : ℝ)) N s im

/-- `calc_matrices` as `path_integration` calls it (`iteration.hpp` lines 452, 485). -/
noncomputable def pathMatrices (p : NRIter) (s : ℝ × ℝ) : Outcome (Option PathMat) := calcMatrices p (some ![s.1, s.2])

end Teqp.Model

import Verif.Model.Factory
import Verif.Model.Lambda
import Mathlib.Data.Real.Sqrt

/-! # Fitting the parameters of a pure fluid

Models `/repo/include/teqp/algorithms/pure_param_optimization.hpp`.  The model built by `make_model` is represented by
what the contributions ask of it: the reduced derivatives of its residual Helmholtz energy for `z = [1]` and its
`pure_VLE_T`.  Floating-point overflow is not modelled: a value that is not finite comes from a division by zero, the
square root of a negative number or the external solver.  `json_pointer` strings are represented by their tokens. -/

set_option autoImplicit false

namespace Teqp.Model

/-! ## The document -/

/-- One reference token of a `json_pointer`: its text and, when the text is a decimal number without leading zero, the
array index it stands for (`nlohmann/json`, external). -/
structure PTok where
  name : String
  index : Option ℕ

/-- `fs[name] = v` for a key that is present. -/
def setKey (fs : List (String × JTree)) (k : String) (v : JTree) : List (String × JTree) :=
  match fs with
  | [] => []
  | (k', v') :: rest => if k' = k then (k', v) :: rest else (k', v') :: setKey rest k v

/-- `j.at(ptr)` (checked access by pointer; used by `pure_param_optimization.hpp` line 224). -/
def getPtr : List PTok → JTree → Outcome JTree
  | [], j => .ok j
  | t :: ts, .obj fs => match fs.lookup t.name with
    | some v => getPtr ts v
    | none => .throws .jsonError
  | t :: ts, .arr xs => match t.index with
    | some i => match xs[i]? with
      | some v => getPtr ts v
      | none => .throws .jsonError
    | none => .throws .jsonError
  | _ :: _, _ => .throws .jsonError

/-- `j.at(ptr) = v` (`pure_param_optimization.hpp` line 224): the entry must exist. -/
def setPtr (v : JTree) : List PTok → JTree → Outcome JTree
  | [], _ => .ok v
  | t :: ts, .obj fs => match fs.lookup t.name with
    | some c => (setPtr v ts c).bind fun c' => .ok (.obj (setKey fs t.name c'))
    | none => .throws .jsonError
  | t :: ts, .arr xs => match t.index with
    | some i => match xs[i]? with
      | some c => (setPtr v ts c).bind fun c' => .ok (.arr (xs.set i c'))
      | none => .throws .jsonError
    | none => .throws .jsonError
  | _ :: _, _ => .throws .jsonError

/-- The inner loop of `build_JSON` (`pure_param_optimization.hpp` lines 223-225). -/
def setAllPtr (v : JTree) : List (List PTok) → JTree → Outcome JTree
  | [], j => .ok j
  | p :: ps, j => (setPtr v p j).bind (setAllPtr v ps)

/-- The outer loop of `build_JSON` (`pure_param_optimization.hpp` lines 222-226). -/
def setGroups : List (List (List PTok)) → List ℝ → JTree → Outcome JTree
  | ps :: pss, x :: xs, j => (setAllPtr (.num x) ps j).bind (setGroups pss xs)
  | _, _, j => .ok j

/-- `build_JSON` (`pure_param_optimization.hpp` lines 215-228). -/
def buildJSON (jbase : JTree) (pointers : List (List (List PTok))) (x : List ℝ) : Outcome JTree :=
  if x.length ≠ pointers.length then .throws .invalidArgument
  else setGroups pointers x jbase

/-! ## The contributions -/

/-- What a contribution asks of the model: `get_Arxy(T, rho, [1])` and `pure_VLE_T(T, rhoL, rhoV, 10)`. -/
structure FitModel where
  A : ℕ → ℕ → ℝ → ℝ → ℝ
  vle : ℝ → ℝ → ℝ → Outcome (ℝ × ℝ)

/-- The model whose residual Helmholtz energy is `α`; the saturation solver stays a parameter. -/
noncomputable def FitModel.ofAlpha (α : ℝ → ℝ → ℝ) (vle : ℝ → ℝ → ℝ → Outcome (ℝ × ℝ)) : FitModel := ⟨Agenxy α, vle⟩

/-- Division of doubles. -/
noncomputable def divO (a b : ℝ) : Outcome ℝ := if b = 0 then .nonFinite else .ok (a / b)

/-- Square root of a double. -/
noncomputable def sqrtO (a : ℝ) : Outcome ℝ := if a < 0 then .nonFinite else .ok (Real.sqrt a)

/-- `SatRhoLPoint` (`pure_param_optimization.hpp` lines 16-24); its fields are plain doubles. -/
structure SatRhoL where
  T : ℝ
  rhoLexp : ℝ
  rhoLguess : ℝ
  rhoVguess : ℝ
  weight : ℝ := 1

/-- `PVTNoniterativePoint` (lines 28-52). -/
structure PVTPoint where
  T : Option ℝ := none
  rhoExp : Option ℝ := none
  pExp : Option ℝ := none
  weight : ℝ := 1
  R : ℝ := 8.31446261815324

/-- `SatRhoLPPoint` (lines 54-77). -/
structure SatRhoLP where
  T : Option ℝ := none
  pExp : Option ℝ := none
  rhoLexp : Option ℝ := none
  rhoLguess : Option ℝ := none
  rhoVguess : Option ℝ := none
  weightRho : ℝ := 1
  weightP : ℝ := 1
  R : ℝ := 8.31446261815324

/-- `SatRhoLPWPoint` (lines 79-124). -/
structure SatRhoLPW where
  T : Option ℝ := none
  pExp : Option ℝ := none
  rhoLexp : Option ℝ := none
  wExp : Option ℝ := none
  rhoLguess : Option ℝ := none
  rhoVguess : Option ℝ := none
  Ao20 : Option ℝ := none
  M : Option ℝ := none
  R : Option ℝ := none
  weightRho : ℝ := 1
  weightP : ℝ := 1
  weightW : ℝ := 1

/-- `SOSPoint` (lines 126-181). -/
structure SOSPt where
  T : Option ℝ := none
  pExp : Option ℝ := none
  rhoGuess : Option ℝ := none
  wExp : Option ℝ := none
  Ao20 : Option ℝ := none
  M : Option ℝ := none
  R : Option ℝ := none
  weightW : ℝ := 1

/-- `PureOptimizationContribution` (line 183). -/
inductive FitPoint where
  | satRhoL (p : SatRhoL)
  | satRhoLP (p : SatRhoLP)
  | satRhoLPW (p : SatRhoLPW)
  | sos (p : SOSPt)
  | pvt (p : PVTPoint)

/-- The optional fields of a point in the order of the macros (lines 28, 54, 79, 126). -/
def FitPoint.fields : FitPoint → List (Option ℝ)
  | .satRhoL _ => []
  | .satRhoLP p => [p.T, p.pExp, p.rhoLexp, p.rhoLguess, p.rhoVguess]
  | .satRhoLPW p => [p.T, p.pExp, p.rhoLexp, p.wExp, p.rhoLguess, p.rhoVguess, p.Ao20, p.M, p.R]
  | .sos p => [p.T, p.pExp, p.rhoGuess, p.wExp, p.Ao20, p.M, p.R]
  | .pvt p => [p.T, p.rhoExp, p.pExp]

/-- `check_fields` (lines 18, 36-40, 62-66, 88-92, 136-140). -/
def FitPoint.check (c : FitPoint) : Outcome Unit :=
  if c.fields.all Option.isSome then .ok () else .throws .invalidArgument

/-- `optional::value()`. -/
def optValue (o : Option ℝ) : Outcome ℝ :=
  match o with
  | some x => .ok x
  | none => .throws .stdBadOptionalAccess

/-- `SatRhoLPoint::calculate_contribution` (lines 20-23). -/
def satRhoLCost (m : FitModel) (p : SatRhoL) : Outcome ℝ :=
  (m.vle p.T p.rhoLguess p.rhoVguess).bind fun r => .ok (|r.1 - p.rhoLexp| * p.weight)

/-- `PVTNoniterativePoint::calculate_contribution` (lines 42-50). -/
noncomputable def pvtCost (m : FitModel) (q : PVTPoint) : Outcome ℝ :=
  (optValue q.T).bind fun T => (optValue q.rhoExp).bind fun rho => (optValue q.pExp).bind fun pexp =>
    (divO (rho * q.R * T * (1 + m.A 0 1 T rho) - pexp) rho).bind fun e =>
      (divO e (q.R * T * (1 + 2 * m.A 0 1 T rho + m.A 0 2 T rho))).bind fun d => .ok (|d| * q.weight)

/-- `SatRhoLPPoint::calculate_contribution` (lines 68-75). -/
noncomputable def satRhoLPCost (m : FitModel) (q : SatRhoLP) : Outcome ℝ :=
  (optValue q.T).bind fun T => (optValue q.rhoLguess).bind fun gL => (optValue q.rhoVguess).bind fun gV =>
    (m.vle T gL gV).bind fun r => (optValue q.rhoLexp).bind fun rexp => (optValue q.pExp).bind fun pexp =>
      (divO |r.1 - rexp| rexp).bind fun cr =>
        (divO |r.1 * q.R * T * (1 + m.A 0 1 T r.1) - pexp| pexp).bind fun cp =>
          .ok (cr * q.weightRho + cp * q.weightP)

/-- `M w^2/(R T)` (lines 113 and 175); the divisor `Ao20 + Ar20` is checked by `soundSpeed`. -/
noncomputable def mw2RT (m : FitModel) (Ao20 T rho : ℝ) : ℝ :=
  1 + 2 * m.A 0 1 T rho + m.A 0 2 T rho - (1 + m.A 0 1 T rho - m.A 1 1 T rho) ^ 2 / (Ao20 + m.A 2 0 T rho)

/-- The speed of sound (lines 113-114 and 175-176). -/
noncomputable def soundSpeed (m : FitModel) (Ao20 M R T rho : ℝ) : Outcome ℝ :=
  if Ao20 + m.A 2 0 T rho = 0 then .nonFinite
  else (divO (mw2RT m Ao20 T rho * R * T) M).bind sqrtO

/-- A term of the sum of line 120: dropped when its weight is zero, whatever its value. -/
noncomputable def weighted (w : ℝ) (t : Outcome ℝ) : Outcome ℝ := if w ≠ 0 then t.bind fun x => .ok (x * w) else .ok 0

/-- `SatRhoLPWPoint::calculate_contribution` once the saturation densities are known (lines 98-121); `none` when the
solver returned something that is not finite. -/
noncomputable def lpwTerms (m : FitModel) (q : SatRhoLPW) (T pexp rexp wexp Ao20 M R : ℝ) (rhoL : Option ℝ) : Outcome ℝ :=
  let lift (f : ℝ → Outcome ℝ) : Outcome ℝ := match rhoL with
    | some r => f r
    | none => .nonFinite
  (weighted q.weightRho (lift fun r => divO |r - rexp| rexp)).bind fun a =>
    (weighted q.weightP (lift fun r => divO |r * R * T * (1 + m.A 0 1 T r) - pexp| pexp)).bind fun b =>
      (weighted q.weightW (lift fun r => (soundSpeed m Ao20 M R T r).bind fun w => divO |w - wexp| wexp)).bind fun c =>
        .ok (a + b + c)

/-- `SatRhoLPWPoint::calculate_contribution` (lines 94-122). -/
noncomputable def satRhoLPWCost (m : FitModel) (q : SatRhoLPW) : Outcome ℝ :=
  (optValue q.T).bind fun T => (optValue q.rhoLguess).bind fun gL => (optValue q.rhoVguess).bind fun gV =>
    (optValue q.R).bind fun R => (optValue q.Ao20).bind fun Ao20 => (optValue q.M).bind fun M =>
      (optValue q.rhoLexp).bind fun rexp => (optValue q.pExp).bind fun pexp => (optValue q.wExp).bind fun wexp =>
        match m.vle T gL gV with
        | .ok r => lpwTerms m q T pexp rexp wexp Ao20 M R (some r.1)
        | .nonFinite => lpwTerms m q T pexp rexp wexp Ao20 M R none
        | .throws e => .throws e
        | .ub => .ub

/-- The density iteration of `SOSPoint::calculate_contribution` (lines 151-163), `k` steps left.  A division by zero
makes the density, and with it the result, not finite, unless the residual test stops first. -/
noncomputable def sosLoop (m : FitModel) (R T pexp : ℝ) : ℕ → ℝ → Outcome ℝ
  | 0, rho => .ok rho
  | k + 1, rho =>
    if pexp = 0 then .nonFinite
    else
      let res := (rho * R * T * (1 + m.A 0 1 T rho) - pexp) / pexp
      let dpdrho := R * T * (1 + 2 * m.A 0 1 T rho + m.A 0 2 T rho)
      if dpdrho = 0 then (if |res| < 1e-12 then .ok rho else .nonFinite)
      else
        let change := -res / (dpdrho / pexp)
        if (rho ≠ 0 ∧ |change / rho - 1| < 1e-10) ∨ |res| < 1e-12 then .ok rho
        else sosLoop m R T pexp k (rho + change)

/-- `SOSPoint::calculate_contribution` (lines 142-180). -/
noncomputable def sosCost (m : FitModel) (q : SOSPt) : Outcome ℝ :=
  (optValue q.rhoGuess).bind fun g => (optValue q.R).bind fun R => (optValue q.T).bind fun T =>
    (optValue q.pExp).bind fun pexp => (sosLoop m R T pexp 10 g).bind fun rho =>
      (optValue q.Ao20).bind fun Ao20 => (optValue q.M).bind fun M => (optValue q.wExp).bind fun wexp =>
        (soundSpeed m Ao20 M R T rho).bind fun w => (divO |w - wexp| wexp).bind fun c => .ok (c * q.weightW)

/-- `calculate_contribution` through `std::visit` (lines 245 and 266). -/
noncomputable def FitPoint.cost (m : FitModel) : FitPoint → Outcome ℝ
  | .satRhoL p => satRhoLCost m p
  | .satRhoLP p => satRhoLPCost m p
  | .satRhoLPW p => satRhoLPWCost m p
  | .sos p => sosCost m p
  | .pvt p => pvtCost m p

/-! ## The optimizer -/

/-- `PureParameterOptimizer` (lines 185-282). -/
structure FitOptimizer where
  jbase : JTree
  pointers : List (List (List PTok))
  contributions : List FitPoint

/-- `add_one_contribution` (lines 206-209). -/
def FitOptimizer.add (o : FitOptimizer) (c : FitPoint) : Outcome FitOptimizer :=
  c.check.bind fun _ => .ok { o with contributions := o.contributions ++ [c] }

/-- The sum of `cost_function` (lines 243-246): the first exception propagates; adding to something not finite stays not
finite, but the later contributions are still evaluated. -/
def costSum : List (Outcome ℝ) → Outcome ℝ
  | [] => .ok 0
  | c :: cs => match c with
    | .throws e => .throws e
    | .ub => .ub
    | .nonFinite => (match costSum cs with
      | .throws e => .throws e
      | .ub => .ub
      | _ => .nonFinite)
    | .ok x => (costSum cs).bind fun s => .ok (x + s)

/-- `!isfinite(cost) ? 1e30 : cost` (lines 247-250 and 267). -/
noncomputable def finiteOr (o : Outcome ℝ) : Outcome ℝ :=
  match o with
  | .nonFinite => .ok 1e30
  | o => o

/-- `cost_function` (lines 238-251); `mk` is `make_model`. -/
noncomputable def FitOptimizer.costFn (o : FitOptimizer) (mk : JTree → Outcome FitModel) (x : List ℝ) : Outcome ℝ :=
  (buildJSON o.jbase o.pointers x).bind fun j => (mk j).bind fun m =>
    finiteOr (costSum (o.contributions.map (FitPoint.cost m)))

/-- One task of the pool (lines 265-268): writes its own entry of the buffer.  An exception that leaves a task ends the
program (`std::terminate`). -/
noncomputable def runTask (costs : List (Outcome ℝ)) (buf : Outcome (ℕ → ℝ)) (i : ℕ) : Outcome (ℕ → ℝ) :=
  buf.bind fun b => match finiteOr (costs.getD i (.ok 0)) with
    | .ok v => .ok (Function.update b i v)
    | _ => .ub

/-- `cost_function_threaded` (lines 253-279): `order` is the order in which the tasks finish; with at least one thread
every task is run exactly once before `join` returns (`boost::asio`, external). -/
noncomputable def FitOptimizer.costThreaded (o : FitOptimizer) (mk : JTree → Outcome FitModel) (order : List ℕ) (x : List ℝ) :
    Outcome ℝ :=
  (buildJSON o.jbase o.pointers x).bind fun j => (mk j).bind fun m =>
    (order.foldl (runTask (o.contributions.map (FitPoint.cost m))) (.ok fun _ => 0)).bind fun b =>
      .ok (((List.range o.contributions.length).map b).sum)

end Teqp.Model

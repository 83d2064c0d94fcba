import Verif.Model.MixVLE

/-! # Tracing loops of the binary phase envelopes

Models `/repo/include/teqp/algorithms/VLE.hpp` lines 792-1280.  The ODE steppers of Boost.Odeint are parameters; an
exception inside a step is the outcome `threw`. -/

set_option autoImplicit false

open Classical

namespace Teqp.Model

/-- `TVLEOptions` and `PVLEOptions` (`/repo/include/teqp/algorithms/VLE_types.hpp` lines 5-21). -/
structure TraceOpts where
  initDt : ℝ
  maxDt : ℝ
  initC : ℝ
  maxSteps : ℤ
  integrationOrder : ℤ
  revision : ℤ
  polish : Bool
  polishExceptionOnFail : Bool
  polishReltolRho : ℝ
  calcCriticality : Bool
  critTermination : ℝ
  pTermination : ℝ

/-- Result of `controlled_stepper.try_step` (`VLE.hpp` lines 930-936): an exception, a rejected step with a smaller step
size, or an accepted step with the new state, parameter and suggested step size. -/
inductive StepRes (n : ℕ)
  | threw
  | rejected (dt : ℝ)
  | accepted (x : Fin n → ℝ) (t dt : ℝ)

/-- Result of polishing (`VLE.hpp` lines 995-1018, 1239-1263): an exception from the solver, a rejected result, or an
accepted new state. -/
inductive PolishRes (n : ℕ)
  | threw (e : Err)
  | stuck (o : Outcome Empty)
  | refused
  | accepted (x : Fin n → ℝ)

/-- What a tracing routine supplies to the common loop. -/
structure TraceSys (n : ℕ) where
  /-- `xprime` for a given previous derivative; `none` when it throws. -/
  xprime : (Fin n → ℝ) → (Fin n → ℝ) → Option (Fin n → ℝ)
  /-- The states at which `xprime` has finite values: the derivatives are finite and, since line 846 (1104) divides by
  their norm, not all zero. -/
  finite : (Fin n → ℝ) → Prop
  /-- `controlled_stepper.try_step`. -/
  adaptive : ((Fin n → ℝ) → Option (Fin n → ℝ)) → (Fin n → ℝ) → ℝ → ℝ → StepRes n
  /-- `stop_requested`. -/
  stop : (Fin n → ℝ) → Prop
  /-- The polishing block. -/
  polishing : (Fin n → ℝ) → PolishRes n

/-- The variables carried through the loop: `x0`, `t`, `dt`, `previous_drhodt`, `last_drhodt`, and the stored points
(newest first; only the state of a point is kept). -/
structure TraceState (n : ℕ) where
  x : Fin n → ℝ
  t : ℝ
  dt : ℝ
  prev : Fin n → ℝ
  last : Fin n → ℝ
  points : List (Fin n → ℝ)

/-- `store_point` (`VLE.hpp` lines 886-923, 1141-1179): the derivative is kept from before when `xprime` throws. -/
noncomputable def storePoint {n : ℕ} (sys : TraceSys n) (s : TraceState n) : TraceState n :=
  { s with last := (sys.xprime s.prev s.x).getD s.last, points := s.x :: s.points }

/-- One Euler step (`VLE.hpp` lines 950-957). -/
noncomputable def eulerStep {n : ℕ} (f : (Fin n → ℝ) → Option (Fin n → ℝ)) (x : Fin n → ℝ) (t dt : ℝ) : StepRes n :=
  match f x with
  | none => .threw
  | some d => .accepted (fun i => x i + dt * d i) (t + dt) dt

/-- The step of the selected integration order (`VLE.hpp` lines 930-962); `none` for any other order. -/
noncomputable def envelopeStep {n : ℕ} (sys : TraceSys n) (opt : TraceOpts) (s : TraceState n) : Option (StepRes n) :=
  if opt.integrationOrder = 5 then
    some (match sys.adaptive (sys.xprime s.prev) s.x s.t s.dt with
      | .accepted x t dt => .accepted x t (min dt opt.maxDt)
      | r => r)
  else if opt.integrationOrder = 1 then some (eulerStep (sys.xprime s.prev) s.x s.t s.dt)
  else none

/-- The end of a step: polish, swap the derivatives, store (`VLE.hpp` lines 995-1022). -/
noncomputable def finishStep {n : ℕ} (sys : TraceSys n) (opt : TraceOpts) (s : TraceState n) :
    Outcome (TraceState n) :=
  if opt.polish then
    match sys.polishing s.x with
    | .threw e => .throws e
    | .stuck .ub => .ub
    | .stuck _ => .nonFinite
    | .refused =>
      if opt.polishExceptionOnFail then .throws .iterationFailure
      else .ok (storePoint sys { s with prev := s.last, last := s.prev })
    | .accepted x => .ok (storePoint sys { s with x := x, prev := s.last, last := s.prev })
  else .ok (storePoint sys { s with prev := s.last, last := s.prev })

/-- The loop over steps (`VLE.hpp` lines 884-1023).  `gas` bounds the number of passes, because rejected steps are
repeated without limit; `none` stands for a loop still running.  `left` is `max_steps - istep`; `first` says that
neither a step nor a retry has been made.  A step from a state at which `xprime` is not finite ends the model's loop: the
code carries on with numbers that are not finite, which no comparison of `stop_requested` catches. -/
noncomputable def envelopeLoop {n : ℕ} (sys : TraceSys n) (opt : TraceOpts) :
    ℕ → ℕ → Bool → TraceState n → Option (Outcome (TraceState n))
  | 0, _, _, _ => none
  | _ + 1, 0, _, s => some (.ok s)
  | gas + 1, left + 1, first, s =>
    let s1 := if first then storePoint sys s else s
    match envelopeStep sys opt s1 with
    | none => some (.throws .invalidArgument)
    | some r =>
      if sys.finite s1.x then
        match r with
        | .threw => some (.ok s1)
        | .rejected dt => envelopeLoop sys opt gas (left + 1) false { s1 with dt := dt }
        | .accepted x t dt =>
          if sys.stop x then some (.ok { s1 with x := x, t := t, dt := dt })
          else match finishStep sys opt { s1 with x := x, t := t, dt := dt } with
            | .ok s2 => envelopeLoop sys opt gas left false s2
            | .throws e => some (.throws e)
            | .ub => some .ub
            | .nonFinite => some .nonFinite
      else some .nonFinite

/-- The polishing block of the isotherm (`VLE.hpp` lines 995-1018).  The return code of the solver is not looked at; only
the liquid concentrations are compared. -/
noncomputable def polishIsotherm (m : EOS (Fin 2))
    (solve : Matrix (Fin 4) (Fin 4) ℝ → (Fin 4 → ℝ) → Option (Fin 4 → ℝ)) (T reltol : ℝ) (x : Fin 4 → ℝ) :
    PolishRes 4 :=
  match mixVLETx m solve T [x 0, x 1] [x 2, x 3] [x 0 / (x 0 + x 1), x 1 / (x 0 + x 1)] ⟨1e-10, 1e-8, 1e-10, 1e-8⟩ 10 with
  | .throws e => .threw e
  | .ub => .stuck .ub
  | .nonFinite => .stuck .nonFinite
  | .ok (_, L, V) =>
    if |x 0 - L[0]?.getD 0| > reltol * x 0 ∨ |x 1 - L[1]?.getD 0| > reltol * x 1 then .refused
    else .accepted ![L[0]?.getD 0, L[1]?.getD 0, V[0]?.getD 0, V[1]?.getD 0]

/-- `stop_requested` of the isotherm (`VLE.hpp` lines 964-990). -/
noncomputable def stopIsotherm (m : EOS (Fin 2)) (crit : ℝ → (Fin 2 → ℝ) → ℝ) (opt : TraceOpts) (T : ℝ)
    (x : Fin 4 → ℝ) : Prop :=
  (opt.calcCriticality ∧ (crit T (liq x) < opt.critTermination ∨ crit T (vap x) < opt.critTermination)) ∨
  ptot m T (liq x) > opt.pTermination ∨
  (∃ i, molefrac (liq x) i < 0) ∨ (∃ i, molefrac (liq x) i > 1) ∨ (∃ i, molefrac (vap x) i < 0) ∨
  ∃ i, molefrac (vap x) i > 1

/-- The equations of the isotherm with the options filled in (`VLE.hpp` lines 836-864). -/
noncomputable def isothermSys (m : EOS (Fin 2)) (lin : Solver 2)
    (solve : Matrix (Fin 4) (Fin 4) ℝ → (Fin 4 → ℝ) → Option (Fin 4 → ℝ)) (crit : ℝ → (Fin 2 → ℝ) → ℝ)
    (adaptive : ((Fin 4 → ℝ) → Option (Fin 4 → ℝ)) → (Fin 4 → ℝ) → ℝ → ℝ → StepRes 4) (opt : TraceOpts) (T c : ℝ) :
    TraceSys 4 where
  xprime prev x :=
    let d := drhodpTsatVec m lin T (liq x) (vap x)
    some (xprimeIsotherm c d.1 d.2 prev)
  finite x := tsatFinite (liq x) (vap x) ∧
    sqNorm (drhodpTsatVec m lin T (liq x) (vap x)).1 + sqNorm (drhodpTsatVec m lin T (liq x) (vap x)).2 ≠ 0
  adaptive := adaptive
  stop := stopIsotherm m crit opt T
  polishing := polishIsotherm m solve T opt.polishReltolRho

/-- `trace_VLE_isotherm_binary` (`VLE.hpp` lines 792-1040).  The result lists the stored states, oldest first. -/
noncomputable def traceIsotherm (m : EOS (Fin 2)) (lin : Solver 2)
    (solve : Matrix (Fin 4) (Fin 4) ℝ → (Fin 4 → ℝ) → Option (Fin 4 → ℝ)) (crit : ℝ → (Fin 2 → ℝ) → ℝ)
    (adaptive : ((Fin 4 → ℝ) → Option (Fin 4 → ℝ)) → (Fin 4 → ℝ) → ℝ → ℝ → StepRes 4) (opt : TraceOpts) (gas : ℕ)
    (T : ℝ) (L0 V0 : List ℝ) : Option (Outcome (List (Fin 4 → ℝ))) :=
  if L0.length ≠ 2 then some (.throws .invalidArgument)
  else if L0.length ≠ V0.length then some (.throws .invalidArgument)
  else match L0, V0 with
    | [l0, l1], [v0, v1] =>
      let x0 : Fin 4 → ℝ := ![l0, l1, v0, v1]
      let zero : Fin 4 → ℝ := fun _ => 0
      let d := drhodpTsatVec m lin T (liq x0) (vap x0)
      let c := initialC opt.initC opt.initDt x0 (xprimeIsotherm opt.initC d.1 d.2 zero)
      (envelopeLoop (isothermSys m lin solve crit adaptive opt T c) opt gas opt.maxSteps.toNat true
        ⟨x0, 0, opt.initDt, zero, zero, []⟩).map fun r => r.bind fun s =>
          if opt.revision = 1 ∨ opt.revision = 2 then .ok s.points.reverse else .throws .invalidArgument
    | _, _ => some .ub

/-- Liquid and vapor concentrations of the state vector of an isobar (`VLE.hpp` lines 1096-1097). -/
def liq5 (x : Fin 5 → ℝ) : Fin 2 → ℝ := vec2 (x 1) (x 2)

/-- See `liq5`. -/
def vap5 (x : Fin 5 → ℝ) : Fin 2 → ℝ := vec2 (x 3) (x 4)

/-- The polishing block of the isobar (`VLE.hpp` lines 1239-1268), with the default options of `mixture_VLE_px`
(`VLE_types.hpp` lines 23-29). -/
noncomputable def polishIsobar (m : EOS (Fin 2))
    (solve : (PxEq 2 → PxVar 2 → ℝ) → (PxEq 2 → ℝ) → Option (PxVar 2 → ℝ)) (p reltol : ℝ) (x : Fin 5 → ℝ) :
    PolishRes 5 :=
  match mixVLEpx m solve p (x 0) [x 1 / (x 1 + x 2), x 2 / (x 1 + x 2)] [x 1, x 2] [x 3, x 4]
      ⟨1e-10, 1e-10, 1e-10, 1e-10⟩ 10 with
  | .throws e => .threw e
  | .ub => .stuck .ub
  | .nonFinite => .stuck .nonFinite
  | .ok (_, s) =>
    if |x 1 - s.L 0| > reltol * x 1 ∨ |x 2 - s.L 1| > reltol * x 2 then .refused
    else .accepted ![s.T, s.L 0, s.L 1, s.V 0, s.V 1]

/-- `stop_requested` of the isobar (`VLE.hpp` lines 1212-1234): as for the isotherm, without a limit on the pressure. -/
noncomputable def stopIsobar (crit : ℝ → (Fin 2 → ℝ) → ℝ) (opt : TraceOpts) (x : Fin 5 → ℝ) : Prop :=
  (opt.calcCriticality ∧ (crit (x 0) (liq5 x) < opt.critTermination ∨ crit (x 0) (vap5 x) < opt.critTermination)) ∨
  (∃ i, molefrac (liq5 x) i < 0) ∨ (∃ i, molefrac (liq5 x) i > 1) ∨ (∃ i, molefrac (vap5 x) i < 0) ∨
  ∃ i, molefrac (vap5 x) i > 1

/-- `xprime` of the isobar as a function of the state (`VLE.hpp` lines 1092-1121). -/
noncomputable def isobarRhs (m : EOS (Fin 2)) (lin : Solver 2) (c : ℝ) (prev x : Fin 5 → ℝ) : Option (Fin 5 → ℝ) :=
  let d := drhodTpsatVec m lin (x 0) (liq5 x) (vap5 x)
  some (xprimeIsobar c d.1 d.2 prev)

/-- The equations of the isobar with the options filled in (`VLE.hpp` lines 1092-1280). -/
noncomputable def isobarSys (m : EOS (Fin 2)) (lin : Solver 2)
    (solve : (PxEq 2 → PxVar 2 → ℝ) → (PxEq 2 → ℝ) → Option (PxVar 2 → ℝ)) (crit : ℝ → (Fin 2 → ℝ) → ℝ)
    (adaptive : ((Fin 5 → ℝ) → Option (Fin 5 → ℝ)) → (Fin 5 → ℝ) → ℝ → ℝ → StepRes 5) (opt : TraceOpts) (p c : ℝ) :
    TraceSys 5 where
  xprime := isobarRhs m lin c
  finite x := psatFinite (liq5 x) (vap5 x) ∧
    sqNorm (drhodTpsatVec m lin (x 0) (liq5 x) (vap5 x)).1 + sqNorm (drhodTpsatVec m lin (x 0) (liq5 x) (vap5 x)).2 ≠ 0
  adaptive := adaptive
  stop := stopIsobar crit opt
  polishing := polishIsobar m solve p opt.polishReltolRho

/-- `trace_VLE_isobar_binary` (`VLE.hpp` lines 1046-1283).  The result lists the stored states, oldest first.  The
options have no `revision`; the field is not read. -/
noncomputable def traceIsobar (m : EOS (Fin 2)) (lin : Solver 2)
    (solve : (PxEq 2 → PxVar 2 → ℝ) → (PxEq 2 → ℝ) → Option (PxVar 2 → ℝ)) (crit : ℝ → (Fin 2 → ℝ) → ℝ)
    (adaptive : ((Fin 5 → ℝ) → Option (Fin 5 → ℝ)) → (Fin 5 → ℝ) → ℝ → ℝ → StepRes 5) (opt : TraceOpts) (gas : ℕ)
    (p T0 : ℝ) (L0 V0 : List ℝ) : Option (Outcome (List (Fin 5 → ℝ))) :=
  if L0.length ≠ 2 then some (.throws .invalidArgument)
  else if L0.length ≠ V0.length then some (.throws .invalidArgument)
  else match L0, V0 with
    | [l0, l1], [v0, v1] =>
      let x0 : Fin 5 → ℝ := ![T0, l0, l1, v0, v1]
      let zero : Fin 5 → ℝ := fun _ => 0
      match isobarRhs m lin opt.initC zero x0 with
      | none => some .ub
      | some d =>
        let c := initialC opt.initC opt.initDt x0 d
        (envelopeLoop (isobarSys m lin solve crit adaptive opt p c) opt gas opt.maxSteps.toNat true
          ⟨x0, 0, opt.initDt, zero, zero, []⟩).map fun r => r.bind fun s => .ok s.points.reverse
    | _, _ => some .ub

end Teqp.Model
